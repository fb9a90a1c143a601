import Verif.Lemmas.Backlog
import Verif.Props.Connections
import Verif.Props.Device
/-
C139: a command that failed and the commands after it.
-/
namespace Eip
open Spec

/-- C139 as far as it holds: when nothing is on its way and no receive fails, every command of a history receives the
answer to its own request, whatever it makes of it, and nothing is left over. Missing: commands whose receive fails. -/
theorem c139_own_partial (device : Bytes → Bytes) (ops : List Op) (commands : ∀ op ∈ ops, IsCommand op) (w : World)
    (evs : List Ev) (new : (runOps ops w).1.trace = w.trace ++ evs) (q : List Bytes)
    (fits : backlog device [] evs = some q) (lost : NoLostReceive evs) :
    q = [] ∧ answersIn evs = (requestsIn evs).map device := by
  obtain ⟨evs', t, h⟩ := commands_trips ops commands w
  rw [new] at t
  obtain rfl := List.append_cancel_left t
  have e := List.length_eq_zero_iff.1 (h.served lost fits)
  subst e
  have := (h.backlog fits).1
  rw [List.append_nil] at this
  exact ⟨rfl, this⟩

/-- C139 is violated from the first receive that fails: the answer to that command stays on its way. -/
theorem c139_violated (device : Bytes → Bytes) (op : Op) (cmd : IsCommand op) (w : World) (evs : List Ev)
    (new : (op.run w).2.trace = w.trace ++ evs) (data : Bytes) (lost : .received .tcp data false ∈ evs) :
    ∃ request, requestsIn evs = [request] ∧ backlog device [] evs = some [device request] := by
  obtain ⟨evs', t, h⟩ := command_trip op cmd w
  rw [new] at t
  obtain rfl := List.append_cancel_left t
  cases h with
  | none => exact nomatch lost
  | unsent b => simp at lost
  | both b d ok =>
    simp at lost
    obtain ⟨_, rfl⟩ := lost
    exact ⟨b, rfl, rfl⟩

/-- C139 is violated ever after: once an answer has been left over, no command of whatever history receives the answer to
its own request. What is received is, in order, first what was left over and then the answers to the requests of this
history, and at least as much is left over at the end as at the beginning, so that each command that receives something
gets the answer to an earlier one. -/
theorem c139_violated_ever_after (device : Bytes → Bytes) (ops : List Op) (commands : ∀ op ∈ ops, IsCommand op) (w : World)
    (evs : List Ev) (new : (runOps ops w).1.trace = w.trace ++ evs) (left : List Bytes) (q : List Bytes)
    (fits : backlog device left evs = some q) :
    answersIn evs ++ q = left ++ (requestsIn evs).map device ∧ left.length ≤ q.length ∧
    (answersIn evs).length ≤ (requestsIn evs).length := by
  obtain ⟨evs', t, h⟩ := commands_trips ops commands w
  rw [new] at t
  obtain rfl := List.append_cancel_left t
  obtain ⟨e, l⟩ := h.backlog fits
  refine ⟨e, l, ?_⟩
  have := congrArg List.length e
  rw [List.length_append, List.length_append, List.length_map] at this
  omega

/-- The same for one command: whatever it receives is the oldest of what was left over. -/
theorem c139_violated_next (device : Bytes → Bytes) (op : Op) (cmd : IsCommand op) (w : World) (evs : List Ev)
    (new : (op.run w).2.trace = w.trace ++ evs) (oldest : Bytes) (others q : List Bytes)
    (fits : backlog device (oldest :: others) evs = some q) (data : Bytes) (got : .received .tcp data true ∈ evs) :
    data = oldest ∧ q ≠ [] := by
  obtain ⟨evs', t, h⟩ := command_trip op cmd w
  rw [new] at t
  obtain rfl := List.append_cancel_left t
  cases h with
  | none => exact nomatch got
  | unsent b => simp at got
  | both b d ok =>
    simp at got
    obtain ⟨rfl, rfl⟩ := got
    have h : (if data = oldest then backlog device (others ++ [device b]) [] else none) = some q := fits
    by_cases hd : data = oldest
    · rw [if_pos hd] at h
      cases h
      exact ⟨hd, by simp⟩
    · rw [if_neg hd] at h
      exact nomatch h

/-- C139, the way out: a close that returns leaves nothing on its way, and neither does an open that returns and whose
answer was the device's. -/
theorem c139_reopen (device : Bytes → Bytes) (left : List Bytes) (w w' : World) (evs : List Ev)
    (new : w'.trace = w.trace ++ evs) :
    (Session.close w = (.ok (), w') → backlog device left evs = some []) ∧
    (∀ host port ioPort, Session.open host port ioPort w = (.ok (), w') → ∀ q, backlog device left evs = some q →
      q = [] ∧ answersIn evs = (requestsIn evs).map device) := by
  constructor
  · intro h
    have hc := close_cases w
    rw [h] at hc
    cases hc with
    | closed _ _ _ =>
      have e : _ = evs := List.append_cancel_left new
      rw [← e]
      cases left <;> rfl
  · intro host port ioPort h q fits
    have hc := open_cases host port ioPort w
    rw [h] at hc
    generalize hr : ((.ok (), w') : Res Unit × World) = r at hc
    cases hc with
    | registered handle hw hreg =>
      cases hr
      have e : openEvents host port ioPort (delivered w.env (w.clock + 3)) ++ [] = evs := List.append_cancel_left new
      rw [List.append_nil] at e
      subst e
      have f : (if delivered w.env (w.clock + 3) = device registration then some [] else none) = some q := by
        rw [← fits]
        cases left <;> rfl
      by_cases hd : delivered w.env (w.clock + 3) = device registration
      · rw [if_pos hd] at f
        cases f
        refine ⟨rfl, ?_⟩
        show [delivered w.env (w.clock + 3)] = [device registration]
        rw [hd]
      · rw [if_neg hd] at f
        exact nomatch f
    | _ => exact nomatch hr

theorem backlog_append (device : Bytes → Bytes) (a b : List Ev) : ∀ left : List Bytes,
    backlog device left (a ++ b) = (backlog device left a).bind fun q => backlog device q b := by
  induction a with
  | nil => exact fun _ => rfl
  | cons e a ih =>
    intro left
    rcases e with ⟨s, h, p, ok⟩ | ⟨s, ok⟩ | ⟨s, d, ok⟩ | ⟨s, d, ok⟩ <;> cases s <;> cases ok <;> cases left <;>
      first
      | exact ih _
      | rfl
      | (rename_i r q
         show (if d = r then backlog device q (a ++ b) else none) =
           (if d = r then backlog device q a else none).bind fun q => backlog device q b
         by_cases hd : d = r
         · rw [if_pos hd, if_pos hd]; exact ih _
         · rw [if_neg hd, if_neg hd]; rfl)

theorem requestsIn_append (a b : List Ev) : requestsIn (a ++ b) = requestsIn a ++ requestsIn b := by
  induction a with
  | nil => rfl
  | cons e a ih =>
    rcases e with ⟨s, h, p, ok⟩ | ⟨s, ok⟩ | ⟨s, d, ok⟩ | ⟨s, d, ok⟩ <;> cases s <;> cases ok <;>
      first
      | exact ih
      | exact congrArg (d :: ·) ih

theorem answersIn_append (a b : List Ev) : answersIn (a ++ b) = answersIn a ++ answersIn b := by
  induction a with
  | nil => rfl
  | cons e a ih =>
    rcases e with ⟨s, h, p, ok⟩ | ⟨s, ok⟩ | ⟨s, d, ok⟩ | ⟨s, d, ok⟩ <;> cases s <;> cases ok <;>
      first
      | exact ih
      | exact congrArg (d :: ·) ih

/-- C139, the way out in full: whatever is on its way, close the session, open it, and go on with any commands. If closing
and opening return and no receive fails, then from the registration on every request gets its own answer, and nothing is
left over; only the request to unregister, the first one sent, gets none. -/
theorem c139_recovers (device : Bytes → Bytes) (left : List Bytes) (w w1 w2 : World) (host port ioPort : String)
    (closes : Session.close w = (.ok (), w1)) (opens : Session.open host port ioPort w1 = (.ok (), w2))
    (ops : List Op) (commands : ∀ op ∈ ops, IsCommand op) (evs : List Ev)
    (new : (runOps ops w2).1.trace = w.trace ++ evs) (lost : NoLostReceive evs) (q : List Bytes)
    (fits : backlog device left evs = some q) :
    q = [] ∧ ∃ bye requests, requestsIn evs = bye :: requests ∧ answersIn evs = requests.map device := by
  have c1 : ∃ bye, w1.trace = w.trace ++ [.sent .tcp bye true, .closed .tcp true, .closed .io true] := by
    have hc := close_cases w
    rw [closes] at hc
    cases hc with
    | closed _ _ _ => exact ⟨_, rfl⟩
  have c2 : ∃ e2, w2.trace = w1.trace ++ e2 := by
    have hc := open_cases host port ioPort w1
    rw [opens] at hc
    generalize hr : ((.ok (), w2) : Res Unit × World) = r at hc
    cases hc with
    | registered handle hw hreg => cases hr; exact ⟨_, rfl⟩
    | _ => exact nomatch hr
  obtain ⟨bye, t1⟩ := c1
  obtain ⟨e2, t2⟩ := c2
  obtain ⟨e3, t3, h3⟩ := commands_trips ops commands w2
  rw [t3, t2, t1, List.append_assoc, List.append_assoc] at new
  obtain rfl := List.append_cancel_left new
  rw [backlog_append, (c139_reopen device left w w1 _ t1).1 closes] at fits
  replace fits : backlog device [] (e2 ++ e3) = some q := fits
  rw [backlog_append] at fits
  cases hq : backlog device [] e2 with
  | none => rw [hq] at fits; exact nomatch fits
  | some q2 =>
    obtain ⟨rfl, a2⟩ := (c139_reopen device [] w1 w2 e2 t2).2 host port ioPort opens q2 hq
    rw [hq] at fits
    obtain ⟨rfl, a3⟩ := c139_own_partial device ops commands w2 e3 t3 q fits
      (fun s d h => lost s d (List.mem_append_right _ (List.mem_append_right _ h)))
    refine ⟨rfl, bye, requestsIn e2 ++ requestsIn e3, ?_, ?_⟩
    · rw [requestsIn_append, requestsIn_append]
      rfl
    · rw [answersIn_append, answersIn_append, a2, a3, List.map_append]
      rfl

/-- A world where all socket calls succeed and a session can be closed, opened and used. -/
def reopening : World :=
  ⟨{ Session.new 1 2 3 4 [] with sessionId := 9 },
    fun n => ⟨false, if n < 7 then header ⟨0x65, 4, 7, 0, (0, 0), 0⟩ ++ register 1 0 else replyWith 7 0 0x90 0 [], 0⟩, 0, []⟩

/-- A device that registers sessions and lets attributes be written. -/
def welcoming (request : Bytes) : Bytes :=
  if request = registration then header ⟨0x65, 4, 7, 0, (0, 0), 0⟩ ++ register 1 0 else replyWith 7 0 0x90 0 []

/-- An answer was on its way; after closing and opening, the command gets its own. -/
example : (Session.close reopening).1 = .ok () ∧
    (Session.open "device" "44818" "2222" (Session.close reopening).2).1 = .ok () ∧
    backlog welcoming [[1, 2, 3]] (runOps [.setAttribute 1 1 1 none]
      (Session.open "device" "44818" "2222" (Session.close reopening).2).2).1.trace = some [] ∧
    answersIn (runOps [.setAttribute 1 1 1 none]
      (Session.open "device" "44818" "2222" (Session.close reopening).2).2).1.trace =
        [header ⟨0x65, 4, 7, 0, (0, 0), 0⟩ ++ register 1 0, replyWith 7 0 0x90 0 []] := by decide +kernel

/-- A device that answers with its name for itself and the last byte of the request. -/
def echoing (request : Bytes) : Bytes := [0xD0, request.getLast?.getD 0]

/-- A world where the second socket call fails, and later ones deliver what `echoing` answers to the first request and so
on. -/
def oneLost : World :=
  ⟨{ Session.new 1 2 3 4 [] with sessionId := 7 }, fun n => ⟨n == 1, [0xD0, if n = 3 then 1 else 2], 0⟩, 0, []⟩

/-- Three commands for attributes 1, 2 and 3: the receive of the first fails, the second gets the answer to the first, the
third that to the second, and that to the third is left over. -/
example : backlog echoing [] (runOps [.setAttribute 1 1 1 none, .setAttribute 1 1 2 none,
      .setAttribute 1 1 3 none] oneLost).1.trace = some [[0xD0, 3]] ∧
    answersIn (runOps [.setAttribute 1 1 1 none, .setAttribute 1 1 2 none,
      .setAttribute 1 1 3 none] oneLost).1.trace = [[0xD0, 1], [0xD0, 2]] := by decide +kernel

/-- The world after reading an attribute as raw bytes. -/
theorem read_world (x y z : UInt8) (w : World) :
    (Use.run w (.read x y z)).2 = (Session.sendRRDataCommand 0x0E (Path.mk3 x y z) none w).2 := by
  rw [Use.run, getAttr_eq]
  generalize Session.sendRRDataCommand 0x0E (Path.mk3 x y z) none w = o
  obtain ⟨(resp | _ | _), w'⟩ := o
  · dsimp only
  · rfl
  · rfl

/-- What one use after the other gives. -/
theorem uses_outcomes (u : Use) (us : List Use) (w : World) :
    (runUses (u :: us) w).1.map Prod.snd = (u.run w).1 :: (runUses us (u.run w).2).1.map Prod.snd ∧
    (runUses (u :: us) w).2 = (runUses us (u.run w).2).2 := ⟨rfl, rfl⟩

theorem uses_none (w : World) : runUses [] w = ([], w) := rfl

/-- Reading an attribute as raw bytes adds to the trace. -/
theorem read_adds (x y z : UInt8) (w : World) : ∃ evs, (Use.run w (.read x y z)).2.trace = w.trace ++ evs := by
  have rr := getAttr_cases x y z w
  rw [read_world]
  generalize Session.sendRRDataCommand 0x0E (Path.mk3 x y z) none w = r at rr ⊢
  cases rr with
  | sendFails => exact ⟨_, rfl⟩
  | receiveFails => exact ⟨_, List.append_assoc _ _ _⟩
  | replied => exact ⟨_, rfl⟩

/-- And so do several of them. -/
theorem reads_add (as : List (UInt8 × UInt8 × UInt8)) :
    ∀ w : World, ∃ evs, (runUses (as.map fun a => .read a.1 a.2.1 a.2.2) w).2.trace = w.trace ++ evs := by
  induction as with
  | nil => exact fun w => ⟨[], (List.append_nil _).symm⟩
  | cons a as ih =>
    intro w
    obtain ⟨e1, h1⟩ := read_adds a.1 a.2.1 a.2.2 w
    obtain ⟨e2, h2⟩ := ih (Use.run w (.read a.1 a.2.1 a.2.2)).2
    exact ⟨e1 ++ e2, by rw [← List.append_assoc, ← h1, List.map_cons, (uses_outcomes _ _ _).2, h2]⟩

/-- Reading a list of attributes while the answer to an earlier read is on its way. -/
theorem reads_shifted (device : Bytes → Bytes) (handle : UInt32) (attr : UInt8 × UInt8 × UInt8 → Bytes)
    (answers : ∀ a, Response handle (device (readFrame handle a.1 a.2.1 a.2.2)) 0x8E 0 (attr a))
    (some : ∀ a, attr a ≠ []) (as : List (UInt8 × UInt8 × UInt8)) :
    ∀ (prev : UInt8 × UInt8 × UInt8) (w : World) (_ : w.s.sessionId = handle)
      (_ : ∀ n, w.clock ≤ n → (w.env n).fails = false) (evs : List Ev)
      (_ : (runUses (as.map fun a => .read a.1 a.2.1 a.2.2) w).2.trace = w.trace ++ evs) (q : List Bytes)
      (_ : backlog device [device (readFrame handle prev.1 prev.2.1 prev.2.2)] evs = .some q),
      (runUses (as.map fun a => .read a.1 a.2.1 a.2.2) w).1.map Prod.snd =
        (prev :: as).dropLast.map (fun a => Outcome.bytes (attr a)) := by
  induction as with
  | nil => intros; rfl
  | cons a as ih =>
    intro prev w hs works evs new q fits
    subst hs
    have hw : Works w.env w.clock := ⟨works _ (Nat.le_refl _), works _ (Nat.le_succ _)⟩
    have e : (Use.run w (.read a.1 a.2.1 a.2.2)).2 =
        w.exchanged (command w.s.sessionId 0x0E [.class' a.1, .instance' a.2.1, .attribute a.2.2] []) := by
      rw [read_world]
      have rr := getAttr_cases a.1 a.2.1 a.2.2 w
      generalize Session.sendRRDataCommand 0x0E (Path.mk3 a.1 a.2.1 a.2.2) none w = r at rr ⊢
      cases rr with
      | sendFails h => rw [hw.1] at h; cases h
      | receiveFails _ h => rw [hw.2] at h; cases h
      | replied => rfl
    obtain ⟨evs', t⟩ := reads_add as (Use.run w (.read a.1 a.2.1 a.2.2)).2
    have t' : w.trace ++ evs = (w.trace ++ [Ev.sent .tcp (readFrame w.s.sessionId a.1 a.2.1 a.2.2) true,
        Ev.received .tcp (delivered w.env (w.clock + 1)) true]) ++ evs' := by
      rw [← new, List.map_cons, (uses_outcomes _ _ _).2, t, e]
      rfl
    rw [List.append_assoc] at t'
    obtain rfl := List.append_cancel_left t'
    have f : (if delivered w.env (w.clock + 1) = device (readFrame w.s.sessionId prev.1 prev.2.1 prev.2.2) then
        backlog device [device (readFrame w.s.sessionId a.1 a.2.1 a.2.2)] evs' else none) = .some q := fits
    by_cases hd : delivered w.env (w.clock + 1) = device (readFrame w.s.sessionId prev.1 prev.2.1 prev.2.2)
    · rw [if_pos hd] at f
      have r := answers prev
      rw [← hd] at r
      obtain ⟨w', _, h⟩ := c38_get_raw a.1 a.2.1 a.2.2 ⟨[]⟩ w hw 0x8E (attr prev) r (some prev)
      have o : (Use.run w (.read a.1 a.2.1 a.2.2)).1 = .bytes (attr prev) := by
        rw [Use.run, h]
        rfl
      have rest := ih a (Use.run w (.read a.1 a.2.1 a.2.2)).2 (by rw [e]; rfl)
        (by rw [e]; exact fun n hn => works n (Nat.le_trans (Nat.le_add_right _ 2) hn)) evs' t q f
      rw [List.map_cons, (uses_outcomes _ _ _).1, o, rest]
      rfl
    · rw [if_neg hd] at f
      exact nomatch f

/-- C139 is violated, what the caller sees: read any attributes one after the other from a device that answers every read
with the value of the attribute asked for, over a network that works but for the first receive. The first read throws;
every later one returns, as the value of its attribute, the value of the attribute read before it. -/
theorem c139_violated_values (device : Bytes → Bytes) (attr : UInt8 × UInt8 × UInt8 → Bytes) (w : World)
    (answers : ∀ a, Response w.s.sessionId (device (readFrame w.s.sessionId a.1 a.2.1 a.2.2)) 0x8E 0 (attr a))
    (some : ∀ a, attr a ≠ []) (works : ∀ n, w.clock ≤ n → ((w.env n).fails = true ↔ n = w.clock + 1))
    (first : UInt8 × UInt8 × UInt8) (others : List (UInt8 × UInt8 × UInt8)) (evs : List Ev)
    (new : (runUses ((first :: others).map fun a => .read a.1 a.2.1 a.2.2) w).2.trace = w.trace ++ evs) (q : List Bytes)
    (fits : backlog device [] evs = .some q) :
    (runUses ((first :: others).map fun a => .read a.1 a.2.1 a.2.2) w).1.map Prod.snd =
      .other :: (first :: others).dropLast.map (fun a => .bytes (attr a)) := by
  have f0 : (w.env w.clock).fails = false := by
    cases h : (w.env w.clock).fails with
    | false => rfl
    | true => exact absurd ((works _ (Nat.le_refl _)).1 h) (by omega)
  have f1 : (w.env (w.clock + 1)).fails = true := (works _ (Nat.le_succ _)).2 rfl
  have e : Use.run w (.read first.1 first.2.1 first.2.2) =
      (.other, (w.after (.sent .tcp (readFrame w.s.sessionId first.1 first.2.1 first.2.2) true)).after
        (.received .tcp (delivered w.env (w.clock + 1)) false)) := by
    rw [Use.run, getAttr_eq]
    have rr := getAttr_cases first.1 first.2.1 first.2.2 w
    generalize Session.sendRRDataCommand 0x0E (Path.mk3 first.1 first.2.1 first.2.2) none w = r at rr ⊢
    cases rr with
    | sendFails h => rw [f0] at h; cases h
    | receiveFails => rfl
    | replied h => rw [h.2] at f1; cases f1
  obtain ⟨evs', t⟩ := reads_add others (Use.run w (.read first.1 first.2.1 first.2.2)).2
  have t' : w.trace ++ evs = (w.trace ++ [Ev.sent .tcp (readFrame w.s.sessionId first.1 first.2.1 first.2.2) true,
      Ev.received .tcp (delivered w.env (w.clock + 1)) false]) ++ evs' := by
    rw [← new, List.map_cons, (uses_outcomes _ _ _).2, t, e]
    simp only [World.after, List.append_assoc, List.cons_append, List.nil_append]
  rw [List.append_assoc] at t'
  obtain rfl := List.append_cancel_left t'
  have rest := reads_shifted device w.s.sessionId attr answers some others first
    (Use.run w (.read first.1 first.2.1 first.2.2)).2 (by rw [e]; rfl) (by
      rw [e]
      intro n hn
      have hn' : w.clock + 2 ≤ n := hn
      show (w.env n).fails = false
      cases h : (w.env n).fails with
      | false => rfl
      | true => exact absurd ((works n (by omega)).1 h) (by omega)) evs' t q fits
  rw [List.map_cons, (uses_outcomes _ _ _).1, rest, e]

/-- A world where the second socket call fails; the answers carry the value 10 times the number of the exchange. -/
def shiftedReads : World :=
  ⟨{ Session.new 1 2 3 4 [] with sessionId := 7 },
    fun n => ⟨n == 1, replyWith 7 0 0x8E 0 [UInt8.ofNat (n / 2) * 10], 0⟩, 0, []⟩

/-- A device whose attributes are 10 times their number. -/
def tenfold (request : Bytes) : Bytes := replyWith 7 0 0x8E 0 [request.getLast?.getD 0 * 10]

/-- Attributes 1, 2 and 3 read from it: the answer to the first read is not received, 2 is read as 10, 3 as 20. -/
example : ((runUses [.read 1 1 1, .read 1 1 2, .read 1 1 3] shiftedReads).1.map Prod.snd = [.other, .bytes [10], .bytes [20]]) ∧
    backlog tenfold [] (runUses [.read 1 1 1, .read 1 1 2, .read 1 1 3] shiftedReads).2.trace =
      some [replyWith 7 0 0x8E 0 [30]] := by decide +kernel

/-- C139 is violated, for writes: when the receive of a read has failed and the device had a good answer to it, the next
write returns normally whatever the device answers to it, even that it refuses; that answer is then on its way. -/
theorem c139_violated_write (device : Bytes → Bytes) (w : World) (x y z : UInt8) (service : UInt8) (v : Bytes)
    (answer : Response w.s.sessionId (device (readFrame w.s.sessionId x y z)) service 0 v)
    (sent : (w.env w.clock).fails = false) (lost : (w.env (w.clock + 1)).fails = true) (works : Works w.env (w.clock + 2))
    (x' y' z' : UInt8) (o : Obj) (bs : Bytes) (enc : Encodes o bs) (evs : List Ev)
    (new : (runUses [.read x y z, .write x' y' z' o bs] w).2.trace = w.trace ++ evs) (q : List Bytes)
    (fits : backlog device [] evs = some q) :
    (runUses [.read x y z, .write x' y' z' o bs] w).1.map Prod.snd = [.other, .done] ∧
      q = [device (writeFrame w.s.sessionId x' y' z' bs)] := by
  have e : Use.run w (.read x y z) =
      (.other, (w.after (.sent .tcp (readFrame w.s.sessionId x y z) true)).after
        (.received .tcp (delivered w.env (w.clock + 1)) false)) := by
    rw [Use.run, getAttr_eq]
    have rr := getAttr_cases x y z w
    generalize Session.sendRRDataCommand 0x0E (Path.mk3 x y z) none w = r at rr ⊢
    cases rr with
    | sendFails h => rw [sent] at h; cases h
    | receiveFails => rfl
    | replied h => rw [h.2] at lost; cases lost
  rw [(uses_outcomes _ _ _).2, (uses_outcomes _ _ _).2, e] at new
  rw [(uses_outcomes _ _ _).1, (uses_outcomes _ _ _).1, e]
  generalize hw1 : (w.after (.sent .tcp (readFrame w.s.sessionId x y z) true)).after
        (.received .tcp (delivered w.env (w.clock + 1)) false) = w1 at new ⊢
  have hs : w1.s.sessionId = w.s.sessionId := by rw [← hw1]; rfl
  have hc : w1.clock = w.clock + 2 := by rw [← hw1]; rfl
  have he : w1.env = w.env := by rw [← hw1]; rfl
  have ht : w1.trace = w.trace ++ [.sent .tcp (readFrame w.s.sessionId x y z) true,
      .received .tcp (delivered w.env (w.clock + 1)) false] := by
    rw [← hw1]
    simp only [World.after, List.append_assoc, List.cons_append, List.nil_append]
  have hw : Works w1.env w1.clock := by rw [he, hc]; exact works
  have run : (Use.run w1 (.write x' y' z' o bs)).2 =
      w1.exchanged (writeFrame w1.s.sessionId x' y' z' bs) := by
    rw [Use.run, setAttr_eq]
    have rr := setAttr_cases x' y' z' (data := some o) enc w1
    generalize Session.sendRRDataCommand 0x10 (Path.mk3 x' y' z') (some o) w1 = r at rr ⊢
    cases rr with
    | sendFails h => rw [hw.1] at h; cases h
    | receiveFails _ h => rw [hw.2] at h; cases h
    | replied _ r _ => cases r <;> rfl
  have new' : w.trace ++ [Ev.sent .tcp (readFrame w.s.sessionId x y z) true,
      .received .tcp (delivered w.env (w.clock + 1)) false, .sent .tcp (writeFrame w.s.sessionId x' y' z' bs) true,
      .received .tcp (delivered w1.env (w1.clock + 1)) true] = w.trace ++ evs := by
    rw [← new, uses_none, run, World.exchanged, hs, ht, List.append_assoc]
    rfl
  obtain rfl := List.append_cancel_left new'
  have f : (if delivered w1.env (w1.clock + 1) = device (readFrame w.s.sessionId x y z) then
      some [device (writeFrame w.s.sessionId x' y' z' bs)] else none) = some q := fits
  by_cases hd : delivered w1.env (w1.clock + 1) = device (readFrame w.s.sessionId x y z)
  · rw [if_pos hd] at f
    cases f
    refine ⟨?_, rfl⟩
    rw [← hd, ← hs] at answer
    obtain ⟨w', h, _⟩ := (c39_set x' y' z' (some o) bs enc w1).2 hw ⟨service, v, answer⟩
    rw [uses_none, Use.run, h]
    rfl
  · rw [if_neg hd] at f
    exact nomatch f

/-- A world where the second socket call fails and the fourth delivers the value of an attribute. -/
def shiftedWrite : World :=
  ⟨{ Session.new 1 2 3 4 [] with sessionId := 7 }, fun n => ⟨n == 1, replyWith 7 0 0x8E 0 [10], 0⟩, 0, []⟩

/-- A device that lets its attributes be read but not written. -/
def readOnly (request : Bytes) : Bytes :=
  if request[40]? = some 0x0E then replyWith 7 0 0x8E 0 [10] else replyWith 7 0 0x90 0x0E []

/-- The write is refused, yet it returns normally. -/
example : ((runUses [.read 1 1 1, .write 1 1 1 (SerializablePrimitive.obj Codec.u16 ⟨5⟩) [5, 0]] shiftedWrite).1.map
      Prod.snd = [.other, .done]) ∧
    backlog readOnly [] (runUses [.read 1 1 1, .write 1 1 1 (SerializablePrimitive.obj Codec.u16 ⟨5⟩) [5, 0]]
      shiftedWrite).2.trace = some [replyWith 7 0 0x90 0x0E []] := by decide +kernel

/-- Asking for a connection adds to the trace. -/
theorem connect_adds (o t : ConnectionInfo) (w : World) : ∃ evs, (Use.run w (.connect o t)).2.trace = w.trace ++ evs := by
  have cc := create_cases w o t
  rw [Use.run]
  generalize Session.createConnection o t w = x at cc ⊢
  have key : ∀ (r : Res RRDataResponse) w', RRCases w.bumped (openBytes w.s o t) (r, w') →
      ∃ evs, w'.trace = w.trace ++ evs := by
    intro r w' rr
    generalize hx : (r, w') = p at rr
    cases rr with
    | sendFails => cases hx; exact ⟨_, rfl⟩
    | receiveFails => cases hx; exact ⟨_, List.append_assoc _ _ _⟩
    | replied => cases hx; exact ⟨_, rfl⟩
  cases cc with
  | thrown e w' rr => exact key _ _ rr
  | crashed u w' rr => exact key _ _ rr
  | _ => exact ⟨_, rfl⟩

/-- And so does asking for several. -/
theorem connects_add (cs : List (ConnectionInfo × ConnectionInfo)) :
    ∀ w : World, ∃ evs, (runUses (cs.map fun c => .connect c.1 c.2) w).2.trace = w.trace ++ evs := by
  induction cs with
  | nil => exact fun w => ⟨[], (List.append_nil _).symm⟩
  | cons c cs ih =>
    intro w
    obtain ⟨e1, h1⟩ := connect_adds c.1 c.2 w
    obtain ⟨e2, h2⟩ := ih (Use.run w (.connect c.1 c.2)).2
    exact ⟨e1 ++ e2, by rw [← List.append_assoc, ← h1, List.map_cons, (uses_outcomes _ _ _).2, h2]⟩

/-- The events of asking for a connection when the socket calls work. -/
theorem connect_trace (o t : ConnectionInfo) (w : World) (hw : Works w.env w.clock) :
    (Use.run w (.connect o t)).2.trace = w.trace ++ [.sent .tcp (openBytes w.s o t) true,
      .received .tcp (delivered w.env (w.clock + 1)) true] := by
  have cc := create_cases w o t
  rw [Use.run]
  generalize Session.createConnection o t w = x at cc ⊢
  have key : ∀ (r : Res RRDataResponse) w', RRCases w.bumped (openBytes w.s o t) (r, w') →
      w'.trace = w.trace ++ [.sent .tcp (openBytes w.s o t) true,
        .received .tcp (delivered w.env (w.clock + 1)) true] := by
    intro r w' rr
    generalize hx : (r, w') = p at rr
    cases rr with
    | sendFails h => exact absurd (h.symm.trans hw.1) (by decide)
    | receiveFails _ h => exact absurd (h.symm.trans hw.2) (by decide)
    | replied => cases hx; rfl
  cases cc with
  | thrown e w' rr => exact key _ _ rr
  | crashed u w' rr => exact key _ _ rr
  | _ => rfl

/-- Asking for a connection when the answer is one to a request with another serial number. -/
theorem connect_mismatch (o t : ConnectionInfo) (w : World) (hw : Works w.env w.clock) (service : UInt8) (data : Bytes)
    (a b : UInt32) (sn vendor : UInt16) (originator oApi tApi : UInt32)
    (answer : Response w.s.sessionId (delivered w.env (w.clock + 1)) service 0 data)
    (names : OpenReply data a b sn vendor originator oApi tApi) (other : sn ≠ w.s.nextConnectionSn) :
    Use.run w (.connect o t) = (.other, w.bumped.exchanged (openBytes w.s o t)) := by
  have cc := create_cases w o t
  rw [Use.run]
  generalize Session.createConnection o t w = x at cc ⊢
  have key : ∀ (r : Res RRDataResponse) w', RRCases w.bumped (openBytes w.s o t) (r, w') → ∃ resp, r = .ok resp := by
    intro r w' rr
    generalize hx : (r, w') = p at rr
    cases rr with
    | sendFails h => exact absurd (h.symm.trans hw.1) (by decide)
    | receiveFails _ h => exact absurd (h.symm.trans hw.2) (by decide)
    | replied _ _ out =>
      cases hx
      obtain ⟨base, a, e⟩ := out.of_response answer
      exact ⟨_, e⟩
  cases cc with
  | thrown e w' rr => obtain ⟨_, h⟩ := key _ _ rr; cases h
  | crashed u w' rr => obtain ⟨_, h⟩ := key _ _ rr; cases h
  | noData s _ h =>
    obtain ⟨_, _, rfl⟩ := Response.unique answer h
    exact absurd rfl (OpenReply.ne_nil names)
  | short what s data' _ h _ hn =>
    obtain ⟨_, _, rfl⟩ := Response.unique answer h
    exact absurd ⟨_, _, _, _, _, _, _, names⟩ hn
  | mismatch => rfl
  | created s data' _ _ _ _ _ h hr =>
    obtain ⟨_, _, rfl⟩ := Response.unique answer h
    exact absurd (OpenReply.unique names hr).2.2.1 other

theorem pred_ne (n : UInt16) : n ≠ n + 1 := by
  intro h
  have h0 : n + 0 = n + 1 := by rw [UInt16.add_zero]; exact h
  exact absurd (UInt16.add_right_inj n |>.1 h0) (by decide)

/-- Asking for connections while the answer to an earlier such request is on its way. -/
theorem connects_shifted (device : Bytes → Bytes) (handle : UInt32) (grants : GrantsAll device handle)
    (cs : List (ConnectionInfo × ConnectionInfo)) :
    ∀ (prev : Bytes) (sn : UInt16) (w : World) (_ : triadOf prev = triad sn w.s.vendorId w.s.serialNum)
      (_ : w.s.nextConnectionSn = sn + 1) (_ : w.s.sessionId = handle)
      (_ : ∀ n, w.clock ≤ n → (w.env n).fails = false) (evs : List Ev)
      (_ : (runUses (cs.map fun c => .connect c.1 c.2) w).2.trace = w.trace ++ evs) (q : List Bytes)
      (_ : backlog device [device (openFrame handle prev)] evs = some q),
      (runUses (cs.map fun c => .connect c.1 c.2) w).1.map Prod.snd = List.replicate cs.length .other ∧
      (runUses (cs.map fun c => .connect c.1 c.2) w).2.s.connections = w.s.connections ∧
      (requestsIn evs).length = cs.length := by
  induction cs with
  | nil =>
    intro prev sn w _ _ _ _ evs new q _
    have : evs = [] := by
      have : w.trace ++ [] = w.trace ++ evs := by rw [← new, List.append_nil]; rfl
      exact (List.append_cancel_left this).symm
    subst this
    exact ⟨rfl, rfl, rfl⟩
  | cons c cs ih =>
    intro prev sn w name next hs works evs new q fits
    subst hs
    have hw : Works w.env w.clock := ⟨works _ (Nat.le_refl _), works _ (Nat.le_succ _)⟩
    have tr := connect_trace c.1 c.2 w hw
    obtain ⟨evs', t⟩ := connects_add cs (Use.run w (.connect c.1 c.2)).2
    have t' : w.trace ++ evs = (w.trace ++ [Ev.sent .tcp (openBytes w.s c.1 c.2) true,
        Ev.received .tcp (delivered w.env (w.clock + 1)) true]) ++ evs' := by
      rw [← new, List.map_cons, (uses_outcomes _ _ _).2, t, tr]
    rw [List.append_assoc] at t'
    obtain rfl := List.append_cancel_left t'
    have f : (if delivered w.env (w.clock + 1) = device (openFrame w.s.sessionId prev) then
        backlog device [device (openBytes w.s c.1 c.2)] evs' else none) = some q := fits
    by_cases hd : delivered w.env (w.clock + 1) = device (openFrame w.s.sessionId prev)
    · rw [if_pos hd] at f
      obtain ⟨data, a, b, oApi, tApi, answer, names⟩ := grants prev sn _ _ name
      rw [← hd] at answer
      have e := connect_mismatch c.1 c.2 w hw 0xDB data a b sn _ _ oApi tApi answer names (by rw [next]; exact pred_ne sn)
      have frame : openBytes w.s c.1 c.2 = openFrame w.s.sessionId (openBody w.s c.1 c.2) := rfl
      rw [frame] at f
      obtain ⟨r1, r2, r3⟩ := ih (openBody w.s c.1 c.2) w.s.nextConnectionSn (Use.run w (.connect c.1 c.2)).2
        (by rw [e]; exact (openBody_fields w.s c.1 c.2).2.2.2) (by rw [e]; rfl) (by rw [e]; rfl)
        (by rw [e]; exact fun n hn => works n (Nat.le_trans (Nat.le_add_right _ 2) hn)) evs' t q f
      rw [List.map_cons, (uses_outcomes _ _ _).1, (uses_outcomes _ _ _).2, r1, r2, e]
      refine ⟨rfl, rfl, ?_⟩
      show (requestsIn evs').length + 1 = cs.length + 1
      rw [r3]
    · rw [if_neg hd] at f
      exact nomatch f

/-- C139 is violated, for connections: ask for connections one after the other from a device that grants every one, over a
network that works but for the first receive. Every one of the calls throws and the session has none of the connections,
although all the requests were sent and so the device has opened all of them. -/
theorem c139_violated_connect (device : Bytes → Bytes) (w : World) (grants : GrantsAll device w.s.sessionId)
    (works : ∀ n, w.clock ≤ n → ((w.env n).fails = true ↔ n = w.clock + 1))
    (first : ConnectionInfo × ConnectionInfo) (others : List (ConnectionInfo × ConnectionInfo)) (evs : List Ev)
    (new : (runUses ((first :: others).map fun c => .connect c.1 c.2) w).2.trace = w.trace ++ evs) (q : List Bytes)
    (fits : backlog device [] evs = some q) :
    (runUses ((first :: others).map fun c => .connect c.1 c.2) w).1.map Prod.snd =
      List.replicate (others.length + 1) .other ∧
    (runUses ((first :: others).map fun c => .connect c.1 c.2) w).2.s.connections = w.s.connections ∧
    (requestsIn evs).length = others.length + 1 := by
  have f0 : (w.env w.clock).fails = false := by
    cases h : (w.env w.clock).fails with
    | false => rfl
    | true => exact absurd ((works _ (Nat.le_refl _)).1 h) (by omega)
  have f1 : (w.env (w.clock + 1)).fails = true := (works _ (Nat.le_succ _)).2 rfl
  have e : Use.run w (.connect first.1 first.2) =
      (.other, (w.bumped.after (.sent .tcp (openBytes w.s first.1 first.2) true)).after
        (.received .tcp (delivered w.env (w.clock + 1)) false)) := by
    have cc := create_cases w first.1 first.2
    rw [Use.run]
    generalize Session.createConnection first.1 first.2 w = x at cc ⊢
    have key : ∀ (r : Res RRDataResponse) w', RRCases w.bumped (openBytes w.s first.1 first.2) (r, w') →
        r = .throw systemError ∧ w' = (w.bumped.after (.sent .tcp (openBytes w.s first.1 first.2) true)).after
          (.received .tcp (delivered w.env (w.clock + 1)) false) := by
      intro r w' rr
      generalize hx : (r, w') = p at rr
      cases rr with
      | sendFails h => exact absurd (h.symm.trans f0) (by decide)
      | receiveFails => cases hx; exact ⟨rfl, rfl⟩
      | replied h => exact absurd (h.2.symm.trans f1) (by decide)
    have no : ¬ Works w.env w.clock := fun h => absurd (h.2.symm.trans f1) (by decide)
    cases cc with
    | thrown ex w' rr => obtain ⟨h, rfl⟩ := key _ _ rr; cases h; rfl
    | crashed u w' rr => obtain ⟨h, _⟩ := key _ _ rr; cases h
    | noData _ hw => exact absurd hw no
    | short _ _ _ hw => exact absurd hw no
    | mismatch _ _ _ _ _ _ _ _ _ _ hw => exact absurd hw no
    | created _ _ _ _ _ _ hw => exact absurd hw no
  obtain ⟨evs', t⟩ := connects_add others (Use.run w (.connect first.1 first.2)).2
  have t' : w.trace ++ evs = (w.trace ++ [Ev.sent .tcp (openBytes w.s first.1 first.2) true,
      Ev.received .tcp (delivered w.env (w.clock + 1)) false]) ++ evs' := by
    rw [← new, List.map_cons, (uses_outcomes _ _ _).2, t, e]
    simp only [World.after, World.bumped, List.append_assoc, List.cons_append, List.nil_append]
  rw [List.append_assoc] at t'
  obtain rfl := List.append_cancel_left t'
  obtain ⟨r1, r2, r3⟩ := connects_shifted device w.s.sessionId grants others (openBody w.s first.1 first.2)
    w.s.nextConnectionSn (Use.run w (.connect first.1 first.2)).2
    (by rw [e]; exact (openBody_fields w.s first.1 first.2).2.2.2) (by rw [e]; rfl) (by rw [e]; rfl) (by
      rw [e]
      intro n hn
      have hn' : w.clock + 2 ≤ n := hn
      show (w.env n).fails = false
      cases h : (w.env n).fails with
      | false => rfl
      | true => exact absurd ((works n (by omega)).1 h) (by omega)) evs' t q fits
  rw [List.map_cons, (uses_outcomes _ _ _).1, (uses_outcomes _ _ _).2, r1, r2, e]
  refine ⟨rfl, rfl, ?_⟩
  show (requestsIn evs').length + 1 = others.length + 1
  rw [r3]

/-- A world where the second socket call fails; the answer received by each later exchange is to a forward open request with
the serial number before. -/
def shiftedConnects : World :=
  ⟨{ Session.new 1 2 3 4 [] with sessionId := 7 }, fun n => ⟨n == 1, openAnswer (UInt16.ofNat (2 + n / 2)), 0⟩, 0, []⟩

/-- A device that grants connections, with the ids 11 and 12. -/
def granting (request : Bytes) : Bytes :=
  let t := triadOf (request.drop 46)
  replyWith 7 0 0xDB 0 (forwardOpenReply 11 12 (de16 (t.take 2)) (de16 ((t.drop 2).take 2)) (de32 (t.drop 4)) 13 14 0 0 [])

/-- It grants every connection. -/
theorem granting_all : GrantsAll granting 7 := by
  intro body sn vendor originator h
  have e : (openFrame 7 body).drop 46 = body := by
    simp [openFrame, command, request, rrData, cpf, item, path, mrRequest, Segment.bytes, List.drop_append,
      List.drop_eq_nil_of_le]
  have l : (triadOf body).length = 8 := by rw [h]; simp [triad]
  have r := replyWith_response (handle := 7) (by decide) 0 0xDB 0 (forwardOpenReply 11 12 sn vendor originator 13 14 0 0 []) []
    (by simp [forwardOpenReply])
  rw [List.append_nil] at r
  refine ⟨_, 11, 12, 13, 14, ?_, ⟨0, 0, [], [], rfl, (List.append_nil _).symm⟩⟩
  rw [granting, e]
  have e8 : triadOf body = triad (de16 ((triadOf body).take 2)) (de16 (((triadOf body).drop 2).take 2))
      (de32 ((triadOf body).drop 4)) := by
    generalize triadOf body = bs at l
    simp only [triad]
    rw [← le16_eq_le, ← le16_eq_le, ← le32_eq_le, le16_de16 (by simp [l]), le16_de16 (by simp [l]), le32_de32 (by simp [l])]
    have e : bs.drop 4 = (bs.drop 2).drop 2 := by simp
    rw [e, List.append_assoc, List.take_append_drop, List.take_append_drop]
  obtain ⟨h1, h2, h3⟩ := triad_inj (e8.symm.trans h)
  rw [h1, h2, h3]
  exact r

/-- Three connections asked for: none is stored, and the answer for the third is on its way. -/
example : (runUses [.connect ⟨1, 2, 3⟩ ⟨4, 5, 6⟩, .connect ⟨1, 2, 3⟩ ⟨4, 5, 6⟩, .connect ⟨1, 2, 3⟩ ⟨4, 5, 6⟩]
      shiftedConnects).1.map Prod.snd = [.other, .other, .other] ∧
    backlog granting [] (runUses [.connect ⟨1, 2, 3⟩ ⟨4, 5, 6⟩, .connect ⟨1, 2, 3⟩ ⟨4, 5, 6⟩,
      .connect ⟨1, 2, 3⟩ ⟨4, 5, 6⟩] shiftedConnects).2.trace = some [openAnswer 5] := by decide +kernel

end Eip
