import Verif.Lemmas.RaceWitness
import Verif.Props.Connections
/-
C128: threads that use one session at the same time, at the level of single accesses to its members.
-/
namespace Eip
open Spec

/-! ### The accesses -/

/-- C128. The accesses of a call, done in a row, are the call. -/
theorem c128_code (op : Op) : op.code.alone = op.value := alone_code op

/-- C128. The lists of places read and written by an access are right: it leaves all other places alone, and what it yields and
what it leaves at the places it writes depends only on what is at the places it concerns and on the next answer of the
sockets. -/
theorem c128_places {β : Type} (a : Access β) (w v : World) :
    (∀ p, p ∉ a.writes → SameAt p w.s (a.perform w).2.s) ∧
    (w.env w.clock = v.env v.clock → (∀ p, p ∈ a.reads ∨ p ∈ a.writes → SameAt p w.s v.s) →
      (a.perform w).1 = (a.perform v).1 ∧ ∀ p, p ∈ a.writes → SameAt p (a.perform w).2.s (a.perform v).2.s) :=
  ⟨fun _ h => a.perform_frame w h, fun ha hp => a.perform_same (fun _ => ha) hp⟩

/-- C128. An access uses a socket only if that socket is among the places it writes: every other access makes no socket call. -/
theorem c128_sockets {β : Type} (a : Access β) (h : ∀ s, Place.socket s ∉ a.writes) (w : World) :
    (a.perform w).2.trace = w.trace ∧ (a.perform w).2.clock = w.clock := by
  cases a with
  | openSocket s _ _ => exact absurd (List.mem_singleton.mpr rfl) (h s)
  | closeSocket s => exact absurd (List.mem_singleton.mpr rfl) (h s)
  | send s _ => exact absurd (List.mem_singleton.mpr rfl) (h s)
  | receive s => exact absurd (List.mem_cons_self ..) (h s)
  | _ => exact ⟨rfl, rfl⟩

example : ∀ s, Place.socket s ∉ (Access.writeId 7).writes := by simp [Access.writes]

/-! ### Calls that may be made together -/

section

variable {plan : Nat → List Op} (together : ∀ i j, i ≠ j → ∀ op ∈ plan i, ∀ op' ∈ plan j, Together op op')
  (s : Session) (env : Nat → Answer) (sched : List Nat)

include together

/-- C128 (partial: threads that only look at connections while no other makes or closes any, or that send I/O data while
one other carries out commands). There is never a data race, however the threads are interleaved. Missing: all other
combinations, for which it is false (`c128_exact`). -/
theorem c128_no_race_partial : ¬ Spec.Crew.Race (Crew.steps sched (Crew.start plan s env)) :=
  ((Crew.Sound.start plan s env).steps together sched).no_race together

/-- C128 (partial: as above). The results of the calls of every thread are those it would get alone from sockets that answer
the same. -/
theorem c128_results_partial (i : Nat) :
    ((Crew.steps sched (Crew.start plan s env)).threads i).past =
      (results ((plan i).take ((Crew.steps sched (Crew.start plan s env)).threads i).past.length)
        (facing s (answersTo i (Crew.steps sched (Crew.start plan s env))))).1 := by
  have hc := (Crew.Sound.start plan s env).steps together sched
  generalize Crew.steps sched (Crew.start plan s env) = c at hc
  obtain ⟨m, hm⟩ := hc.follows i
  have h := hm (facing s (answersTo i c)).env fun k a hk => by simp [facing, hk]
  have hp := (progress (plan i) (facing s (answersTo i c)) m).past
  rw [show ((Thread.new (plan i)).solo (facing s (answersTo i c)) m).1 = c.threads i from h.1] at hp
  exact hp

/-- C128 (partial: as above). Between calls, the socket calls of a thread are those it would have made alone, and whatever
its calls would have changed in the session is changed in that way. -/
theorem c128_effects_partial (i : Nat) (rest : ((Crew.steps sched (Crew.start plan s env)).threads i).now = none) :
    ∃ w, w = (results ((plan i).take ((Crew.steps sched (Crew.start plan s env)).threads i).past.length)
        (facing s (answersTo i (Crew.steps sched (Crew.start plan s env))))).2 ∧
      deeds i (Crew.steps sched (Crew.start plan s env)) = w.trace ∧
      ∀ p, ¬ SameAt p s w.s → SameAt p w.s (Crew.steps sched (Crew.start plan s env)).w.s := by
  have hc := (Crew.Sound.start plan s env).steps together sched
  generalize Crew.steps sched (Crew.start plan s env) = c at hc rest
  obtain ⟨m, hm⟩ := hc.follows i
  obtain ⟨h1, _, _, h4, h5⟩ := hm (facing s (answersTo i c)).env fun k a hk => by simp [facing, hk]
  have hr := (progress (plan i) (facing s (answersTo i c)) m).rest (by
    show ((Thread.new (plan i)).solo ⟨s, (facing s (answersTo i c)).env, 0, []⟩ m).1.now = none
    rw [h1, rest])
  rw [show ((Thread.new (plan i)).solo (facing s (answersTo i c)) m).1 = c.threads i from h1] at hr
  refine ⟨_, rfl, ?_, fun p hp => ?_⟩
  · rw [← hr]; exact h4.symm
  · rw [← hr] at hp ⊢
    refine h5 p ?_
    by_cases hu : ∃ op ∈ plan i, p ∈ op.writes
    · obtain ⟨op, ho, hw⟩ := hu
      exact ⟨op, ho, .inr hw⟩
    · refine absurd ?_ hp
      rw [hr]
      exact results_frame _ (facing s (answersTo i c)) fun op ho hw => hu ⟨op, List.mem_of_mem_take ho, hw⟩

/-- C128 (partial: as above). Between calls of all threads, what none of them would have changed alone is not changed. -/
theorem c128_unchanged_partial (rest : ∀ i, ((Crew.steps sched (Crew.start plan s env)).threads i).now = none) (p : Place)
    (same : ∀ i, SameAt p s (results ((plan i).take ((Crew.steps sched (Crew.start plan s env)).threads i).past.length)
        (facing s (answersTo i (Crew.steps sched (Crew.start plan s env))))).2.s) :
    SameAt p s (Crew.steps sched (Crew.start plan s env)).w.s := by
  have hc := (Crew.Sound.start plan s env).steps together sched
  generalize Crew.steps sched (Crew.start plan s env) = c at hc rest same
  by_cases hu : ∃ i, ∃ op ∈ plan i, p ∈ op.writes
  · obtain ⟨i, op, ho, hw⟩ := hu
    obtain ⟨m, hm⟩ := hc.follows i
    obtain ⟨h1, _, _, _, h5⟩ := hm (facing s (answersTo i c)).env fun k a hk => by simp [facing, hk]
    have hr := (progress (plan i) (facing s (answersTo i c)) m).rest (by
      show ((Thread.new (plan i)).solo ⟨s, (facing s (answersTo i c)).env, 0, []⟩ m).1.now = none
      rw [h1, rest])
    rw [show ((Thread.new (plan i)).solo (facing s (answersTo i c)) m).1 = c.threads i from h1] at hr
    have hs := same i
    rw [← hr] at hs
    exact hs.trans (h5 p ⟨op, ho, .inr hw⟩)
  · exact hc.still p fun i op ho hw => hu ⟨i, op, ho, hw⟩

end

/-- One thread makes and closes a connection, one sends I/O data, one looks at nothing. -/
def division : Nat → List Op
  | 0 => [.createConnection ⟨1, 2, 3⟩ ⟨4, 5, 6⟩, .closeConnection 0]
  | 1 => [.sendIOPacket ⟨[]⟩, .sendIOPacket ⟨[]⟩]
  | _ => []

example : ∀ i j, i ≠ j → ∀ op ∈ division i, ∀ op' ∈ division j, Together op op' := by
  intro i j hij op ho op' ho'
  match i, j with
  | 0, 0 => exact absurd rfl hij
  | 1, 1 => exact absurd rfl hij
  | 0, 1 => simp only [division, List.mem_cons, List.not_mem_nil, or_false] at ho ho'; rcases ho with rfl | rfl <;> rcases ho' with rfl | rfl <;> simp [Together, IsCommand]
  | 1, 0 => simp only [division, List.mem_cons, List.not_mem_nil, or_false] at ho ho'; rcases ho with rfl | rfl <;> rcases ho' with rfl | rfl <;> simp [Together, IsCommand]
  | k + 2, _ => exact nomatch ho
  | _, k + 2 => exact nomatch ho'

/-- After a while all their calls are over. -/
example : ((Crew.steps (List.replicate 30 1 ++ List.replicate 70 0)
      (Crew.start division (answering []).s (answering (openAnswer 3)).env)).threads 0).past.length = 2 ∧
    ((Crew.steps (List.replicate 30 1 ++ List.replicate 70 0)
      (Crew.start division (answering []).s (answering (openAnswer 3)).env)).threads 1).past.length = 2 ∧
    (Crew.steps (List.replicate 30 1 ++ List.replicate 70 0)
      (Crew.start division (answering []).s (answering (openAnswer 3)).env)).w.s.connections.length = 1 ∧
    (answersTo 0 (Crew.steps (List.replicate 30 1 ++ List.replicate 70 0)
      (Crew.start division (answering []).s (answering (openAnswer 3)).env))).length = 4 := by decide +kernel

/-- C128. No thread waits for another: whatever has happened, and whatever the calls are, a thread that goes on comes to the
end of its calls. -/
theorem c128_ends (plan : Nat → List Op) (s : Session) (env : Nat → Answer) (sched : List Nat) (i : Nat) :
    ∃ n, ((Crew.steps (sched ++ List.replicate n i) (Crew.start plan s env)).threads i).now = none ∧
      ((Crew.steps (sched ++ List.replicate n i) (Crew.start plan s env)).threads i).todo = [] := by
  simp only [Crew.steps_append]
  generalize Crew.steps sched (Crew.start plan s env) = c
  exact Crew.finishes i c

/-! ### Calls that may not -/

/-- A session with `n` copies of a connection. -/
def copiesOf (n : Nat) : Session := { (answering []).s with connections := List.replicate n (stored 3) }

variable {plan : Nat → List Op} {i j : Nat} {op op' : Op} {rest rest' : List Op}

/-- C128 is false: two threads race for the control socket if both open, close or send commands, in every state of the session
and whatever the sockets answer. -/
theorem c128_violated_control (hij : i ≠ j) (hi : plan i = op :: rest) (hj : plan j = op' :: rest') (h : OnTcp op) (h' : OnTcp op')
    (s : Session) (env : Nat → Answer) (proper : Proper s op) (proper' : Proper s op') :
    ∃ sched, Spec.Crew.RaceAt (.socket .tcp) (Crew.steps sched (Crew.start plan s env)) := by
  obtain ⟨w', r, hc⟩ := reaches_tcp h (w := ⟨s, env, 0, []⟩) proper
  have p' : Proper w'.s op' := by
    cases op' with
    | closeConnection n => show n < w'.s.connections.length; rw [hc]; exact proper'
    | setAttribute => exact proper'
    | _ => trivial
  obtain ⟨w'', r', _⟩ := reaches_tcp h' p'
  exact Crew.race hij hi hj r r'

example : OnTcp .close ∧ OnTcp (.closeConnection 0) ∧ Proper (copiesOf 1) .close ∧ Proper (copiesOf 1) (.closeConnection 0) := by
  simp [OnTcp, IsCommand, Proper, copiesOf]

/-- C128 is false: a thread that sends or receives I/O data races for the I/O socket with one that sends or receives I/O data,
opens or closes the session, in every state of the session, if no socket call fails until then. -/
theorem c128_violated_io (hij : i ≠ j) (hi : plan i = op :: rest) (hj : plan j = op' :: rest') (h : OnIo op) (h' : IsIO op')
    (can : Sendable op) (can' : Sendable op') (s : Session) (env : Nat → Answer) (ok : (env 0).fails = false)
    (ok' : (env 1).fails = false) :
    ∃ sched, Spec.Crew.RaceAt (.socket .io) (Crew.steps sched (Crew.start plan s env)) := by
  obtain ⟨w', r⟩ := reaches_io h can (w := ⟨s, env, 0, []⟩) ok ok'
  cases op' with
  | receiveIOPacket => exact Crew.race_first hij hi hj r rfl (.inr (by simp [Access.writes]))
  | sendIOPacket pkt =>
    obtain ⟨bs, hb⟩ := can'
    refine Crew.race_first hij hi hj r (b := .send .io bs) (next := fun x => Code.andThen (.done x) fun _ => pure ()) ?_
      (.inr (by simp [Access.writes]))
    show Session.sendIOCode pkt = _
    rw [Session.sendIOCode, Session.sendCode_eq (Serializes.of hb) .io w']
    rfl
  | _ => exact absurd h' (by simp [IsIO])

example : OnIo .close ∧ IsIO (.sendIOPacket ⟨[]⟩) ∧ Sendable (.sendIOPacket ⟨[]⟩) ∧ ((answering []).env 0).fails = false :=
  ⟨trivial, trivial, ⟨_, CPFPacket.encodes (bss := []) (by constructor) (by simp)⟩, rfl⟩

/-- C128 is false: a command and the receiving of I/O data race for the receive buffer, which they share, in every state of the
session, if the command can be sent. -/
theorem c128_violated_buffer (hij : i ≠ j) (hi : plan i = op :: rest) (hj : plan j = .receiveIOPacket :: rest') (h : IsCommand op)
    (s : Session) (env : Nat → Answer) (proper : Proper s op) (ok : (env 0).fails = false) :
    ∃ sched, Spec.Crew.RaceAt .recvBuffer (Crew.steps sched (Crew.start plan s env)) := by
  obtain ⟨w', r⟩ := reaches_buffer h (w := ⟨s, env, 0, []⟩) proper ok
  exact Crew.race_first hij hi hj r rfl (.inr (by simp [Access.writes]))

example : IsCommand (.setAttribute 1 2 3 none) ∧ Proper (copiesOf 0) (.setAttribute 1 2 3 none) := by
  simp [IsCommand, Proper, EncodesOpt]

/-- C128 is false: a call that would alone make or close a connection races with one that looks at any connection. -/
theorem c128_violated_connections (hij : i ≠ j) {n : Nat} (hi : plan i = op :: rest) (hj : plan j = .getConnection n :: rest')
    (s : Session) (env : Nat → Answer) (changes : (op.value ⟨s, env, 0, []⟩).2.s.connections ≠ s.connections) :
    ∃ sched, Spec.Crew.RaceAt .connections (Crew.steps sched (Crew.start plan s env)) := by
  rw [← alone_code] at changes
  obtain ⟨w', r⟩ := Code.reaches_of_change (p := .connections) op.code ⟨s, env, 0, []⟩ fun e => changes e.symm
  exact Crew.race_first hij hi hj r rfl (.inl (by simp [Access.reads]))

example : ((Op.closeConnection 0).value twoConnections).2.s.connections ≠ twoConnections.s.connections := by decide +kernel

/-- C128 is false, and this breaks what holds for one thread (C45): two threads that make a connection can send forward open
requests with the same connection serial number, vendor id and originator serial number, whatever the state of the session. -/
theorem c128_violated_serials (hij : i ≠ j) {o t o' t' : ConnectionInfo} (hi : plan i = .createConnection o t :: rest)
    (hj : plan j = .createConnection o' t' :: rest') (s : Session) (env : Nat → Answer) :
    ∃ sched body body', openRequests (Crew.steps sched (Crew.start plan s env)).w.trace = [body, body'] ∧
      triadOf body = triadOf body' := by
  obtain ⟨b1, b2, b3⟩ := Crew.begun (s := s) (env := env) hij hi hj
  have h : Crew.Both i j _ _ (op := .createConnection o t) (op' := .createConnection o' t') _ _ := ⟨b1, b2, b3⟩
  replace h := (((h.goLeft hij).goRight hij).goLeft hij).goRight hij
  dsimp only [Access.perform] at h
  replace h := (((((h.goLeft hij).goLeft hij).goLeft hij).goLeft hij).goLeft hij).goLeft hij
  dsimp only [Access.perform] at h
  replace h := (((((h.goRight hij).goRight hij).goRight hij).goRight hij).goRight hij).goRight hij
  dsimp only [Access.perform] at h
  obtain ⟨_, ok, w', h, t1⟩ := h.sendLeft hij (openBytes_serializes s o t)
  obtain ⟨_, ok', w'', h, t2⟩ := h.sendRight hij
    (openBytes_serializes { s with nextConnectionId := s.nextConnectionId + 1 + 1 } o' t')
  refine ⟨[i, j, i, j, i, j, i, i, i, i, i, i, j, j, j, j, j, j, i, j], openBody s o t,
    openBody { s with nextConnectionId := s.nextConnectionId + 1 + 1 } o' t', ?_, ?_⟩
  · have e : (Crew.steps [i, j, i, j, i, j, i, i, i, i, i, i, j, j, j, j, j, j, i, j] (Crew.start plan s env)).w = w'' := h.w
    rw [e, t2, t1]
    simp only [openRequests, openRequest, List.filterMap_cons, List.filterMap_nil, List.filterMap_append, openBytes_body]
    rfl
  · rw [(openBody_fields _ o t).2.2.2, (openBody_fields _ o' t').2.2.2]

/-! ### The line between them -/

theorem proper_copies {op : Op} (can : Sendable op) : ∃ n, ∀ m, n ≤ m → Proper (copiesOf m) op := by
  cases op with
  | closeConnection k => exact ⟨k + 1, fun m h => by simp only [Proper, copiesOf, List.length_replicate]; omega⟩
  | setAttribute => exact ⟨0, fun _ _ => can⟩
  | _ => exact ⟨0, fun _ _ => trivial⟩

theorem pair_eq {α β : Type} {x : α × β} {a : α} (h : x.1 = a) : x = (a, x.2) := by
  subst h; rfl

/-- A device that accepts one connection accepts any. -/
theorem create_accepted {w v : World} {o t : ConnectionInfo} {i : Int} (hx : Session.createConnection o t w = (.ok i, v))
    (works : Works w.env w.clock) (o' t' : ConnectionInfo) :
    ∃ i w' c, Session.createConnection o' t' w = (.ok i, w') ∧ w'.s.connections = w.s.connections ++ [c] := by
  obtain ⟨sv, data, a, b, x, y, c, hr, ho, _⟩ := c49_success w v o t i hx
  obtain ⟨i, w', c', e, hc, _⟩ := c49_accepted w o' t' works sv data a b x y hr ho
  exact ⟨i, w', c', e, hc⟩

theorem create_any {w : World} {o t : ConnectionInfo} {i : Int} (h : (Session.createConnection o t w).1 = .ok i)
    (works : Works w.env w.clock) (hk : w.clock = 0) (ht : w.trace = []) (o' t' : ConnectionInfo) :
    ∃ s env, ((Op.createConnection o' t').value ⟨s, env, 0, []⟩).2.s.connections ≠ s.connections := by
  obtain ⟨s, env, k, tr⟩ := w
  simp only at hk ht
  subst hk ht
  obtain ⟨j, w', c, e, hc⟩ := create_accepted (pair_eq h) works o' t'
  have e' : (Op.createConnection o' t').value ⟨s, env, 0, []⟩ = (.ok j, w') := e
  refine ⟨s, env, ?_⟩
  rw [e']
  intro he
  rw [hc] at he
  exact absurd (congrArg List.length he) (by simp)

/-- Every connection can be made, by a device that accepts it. -/
theorem create_changes (o t : ConnectionInfo) :
    ∃ s env, ((Op.createConnection o t).value ⟨s, env, 0, []⟩).2.s.connections ≠ s.connections := by
  have h : (Session.createConnection ⟨1, 2, 3⟩ ⟨4, 5, 6⟩ (answering (openAnswer 3))).1 = .ok 0 := by decide +kernel
  exact create_any h ⟨rfl, rfl⟩ rfl rfl o t

theorem close_any {w v : World} {n m : Nat} {c : Connection} (h : (Session.closeConnection n w).1 = .ok ())
    (hw : w.s.connections[n]? = some c) (hv : v.s.connections[m]? = some c) (he : v.env = w.env) (hk : v.clock = w.clock)
    (hi : v.s.sessionId = w.s.sessionId) (works : Works w.env w.clock) :
    ((Op.closeConnection m).value v).2.s.connections ≠ v.s.connections := by
  rcases hx : Session.closeConnection n w with ⟨r, w1⟩
  rw [hx] at h
  have hr : r = .ok () := h
  subst hr
  obtain ⟨c', sv, data, hc, hr, hb⟩ := c50_success w w1 n hx
  obtain rfl : c = c' := Option.some.inj (hw.symm.trans hc)
  obtain ⟨w', e, hd⟩ := c50_accepted v m c hv (by rw [he, hk]; exact works) sv data (by rw [he, hk, hi]; exact hr) hb
  show (Session.closeConnection m v).2.s.connections ≠ _
  rw [e]
  intro h2
  have h3 := congrArg List.length (hd.symm.trans h2)
  have h4 : m < v.s.connections.length := (List.getElem?_eq_some_iff.mp hv).1
  rw [List.length_append, List.length_take, List.length_drop] at h3
  omega

/-- Every connection can be closed, by a device that accepts it. -/
theorem close_changes (n : Nat) :
    ∃ s env, ((Op.closeConnection n).value ⟨s, env, 0, []⟩).2.s.connections ≠ s.connections := by
  have h : (Session.closeConnection 0 twoConnections).1 = .ok () := by decide +kernel
  exact ⟨copiesOf (n + 1), twoConnections.env, close_any h (c := stored 3) rfl (by simp [copiesOf]) rfl rfl rfl ⟨rfl, rfl⟩⟩

/-- Calls that may not be made together. -/
theorem not_together {op op' : Op} (h : ¬ Together op op') :
    (OnTcp op ∧ OnTcp op') ∨ (OnIo op ∧ IsIO op') ∨ (OnIo op' ∧ IsIO op) ∨ (IsCommand op ∧ op' = .receiveIOPacket) ∨
    (IsCommand op' ∧ op = .receiveIOPacket) ∨
    (∃ n, op' = .getConnection n ∧ ((∃ o t, op = .createConnection o t) ∨ ∃ k, op = .closeConnection k)) ∨
    (∃ n, op = .getConnection n ∧ ((∃ o t, op' = .createConnection o t) ∨ ∃ k, op' = .closeConnection k)) := by
  cases op <;> cases op' <;> simp_all [Together, OnTcp, OnIo, IsIO, IsCommand]

/-- C128. Which calls may be made together: two threads that make one call each never race, in any state, with any answers of
the sockets and in any order, exactly if the two calls are listed in `Together`. -/
theorem c128_exact (op op' : Op) (can : Sendable op) (can' : Sendable op') :
    Together op op' ↔ ∀ s env sched, ¬ Spec.Crew.Race (Crew.steps sched (Crew.start (two op op') s env)) := by
  constructor
  · intro h s env sched
    refine c128_no_race_partial (fun i j hij o ho o' ho' => ?_) s env sched
    match i, j with
    | 0, 0 => exact absurd rfl hij
    | 0, 1 => rw [List.mem_singleton.mp ho, List.mem_singleton.mp ho']; exact h
    | 1, 0 => rw [List.mem_singleton.mp ho, List.mem_singleton.mp ho']; exact h.symm
    | 1, 1 => exact absurd rfl hij
    | k + 2, _ => exact nomatch ho
    | _, k + 2 => exact nomatch ho'
  · intro h
    refine Classical.byContradiction fun hn => ?_
    have p0 : two op op' 0 = op :: [] := rfl
    have p1 : two op op' 1 = op' :: [] := rfl
    have c01 : (0 : Nat) ≠ 1 := by decide
    have c10 : (1 : Nat) ≠ 0 := by decide
    have bad : ∀ {p : Place} {s env}, (∃ sched, Spec.Crew.RaceAt p (Crew.steps sched (Crew.start (two op op') s env))) → False :=
      fun ⟨sched, hr⟩ => h _ _ sched ⟨_, hr⟩
    obtain ⟨n, hp⟩ := proper_copies can
    obtain ⟨n', hp'⟩ := proper_copies can'
    rcases not_together hn with ⟨h1, h2⟩ | ⟨h1, h2⟩ | ⟨h1, h2⟩ | ⟨h1, rfl⟩ | ⟨h1, rfl⟩ | ⟨k, rfl, h2⟩ | ⟨k, rfl, h2⟩
    · exact bad (c128_violated_control c01 p0 p1 h1 h2 (copiesOf (n + n')) (answering []).env (hp _ (by omega)) (hp' _ (by omega)))
    · exact bad (c128_violated_io c01 p0 p1 h1 h2 can can' (copiesOf 0) (answering []).env rfl rfl)
    · exact bad (c128_violated_io c10 p1 p0 h1 h2 can' can (copiesOf 0) (answering []).env rfl rfl)
    · exact bad (c128_violated_buffer c01 p0 p1 h1 (copiesOf n) (answering []).env (hp _ (by omega)) rfl)
    · exact bad (c128_violated_buffer c10 p1 p0 h1 (copiesOf n') (answering []).env (hp' _ (by omega)) rfl)
    · rcases h2 with ⟨o, t, rfl⟩ | ⟨m, rfl⟩
      · obtain ⟨s, env, hx⟩ := create_changes o t
        exact bad (c128_violated_connections c01 p0 p1 s env hx)
      · obtain ⟨s, env, hx⟩ := close_changes m
        exact bad (c128_violated_connections c01 p0 p1 s env hx)
    · rcases h2 with ⟨o, t, rfl⟩ | ⟨m, rfl⟩
      · obtain ⟨s, env, hx⟩ := create_changes o t
        exact bad (c128_violated_connections c10 p1 p0 s env hx)
      · obtain ⟨s, env, hx⟩ := close_changes m
        exact bad (c128_violated_connections c10 p1 p0 s env hx)

end Eip
