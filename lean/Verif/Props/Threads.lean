import Verif.Lemmas.ThreadStages
import Verif.Lemmas.Refs
import Verif.Props.IO
/-
C123: calls made by several threads on one session.
-/
namespace Eip
open Spec

variable {ops : Nat → Op}

/-! ### C123 -/

theorem forget_apply {α : Type} {p : Prog World α} {w : World} {r : Res α} {w' : World} (h : p w = (r, w')) :
    p.forget w = (r.map fun _ => (), w') := by
  rw [Prog.forget]
  cases r with
  | ok a => rw [Prog.bind_ok h]; rfl
  | throw e => rw [Prog.bind_throw h]; rfl
  | ub u => rw [Prog.bind_ub h]; rfl

theorem getValue_of {δ : Type} {c : Class δ} {init : δ} {x y z : UInt8} {w w' : World} {r : Res Unit} {d : δ}
    (h : Session.getSingleAttributeSerializable c x y z (init, w) = (r, (d, w'))) :
    Session.getValue c init x y z w = (r.map fun _ => d, w') := by
  unfold Session.getValue
  generalize Session.getSingleAttributeSerializable c x y z (init, w) = q at h ⊢
  subst h
  rcases r with _ | _ | _ <;> rfl

theorem forget_getValue {δ : Type} {c : Class δ} {init : δ} {x y z : UInt8} {w w' : World} {r : Res Unit} {d : δ}
    (h : Session.getSingleAttributeSerializable c x y z (init, w) = (r, (d, w'))) :
    (Session.getValue c init x y z).forget w = (r, w') := by
  rw [forget_apply (getValue_of h)]
  clear h
  rcases r with _ | _ | _ <;> rfl

theorem run_of {δ : Type} {c : Class δ} {init : δ} {x y z : UInt8} {w w' : World} {r : Res Unit} {d : δ}
    (h : Session.getSingleAttributeSerializable c x y z (init, w) = (r, (d, w'))) :
    (Op.getAttribute δ c init x y z).run w = (r, w') := by
  simp only [Op.run, h]

/-- C123. The pieces that a call is cut into are the call: done in a row they have the same result and the same effect; and
without its value this is the call as the other properties know it. -/
theorem c123_pieces (op : Op) : op.task.alone = op.value ∧ op.value.forget = op.run := by
  refine ⟨alone_task op, ?_⟩
  cases op with
  | getAttribute δ c init x y z =>
    funext w
    cases h : Session.getSingleAttributeSerializable c x y z (init, w) with
    | mk r q =>
    obtain ⟨d, w'⟩ := q
    exact (forget_getValue h).trans (run_of h).symm
  | createConnection => rfl
  | getConnection => rfl
  | receiveIOPacket => rfl
  | «open» => exact Prog.bind_pure _
  | close => exact Prog.bind_pure _
  | setAttribute => exact Prog.bind_pure _
  | closeConnection => exact Prog.bind_pure _
  | sendIOPacket => exact Prog.bind_pure _

/-- C123 (partial: calls that read or write attributes or transfer I/O data, among calls that neither open nor close the
session). However the threads take turns, such a call ends with the result it has alone, when its socket calls get the
same answers, except that the bytes it has received are what remains of them in the buffer when it looks at them: other
calls' receives store their bytes over them. Missing: that nothing is stored over them, which is false. -/
theorem c123_exact_partial (inside : ∀ j, Inside (ops j)) (i : Nat) (transfers : Transfers (ops i)) (s : Session)
    (env : Nat → Answer) (schedule : List Nat) (r : Res (ops i).Value)
    (before : ∀ r', ¬ Over i ((Pool.start ops s env).steps schedule) r')
    (now : Over i (((Pool.start ops s env).steps schedule).step i) r) :
    r = ((ops i).value (facing s (seen i (((Pool.start ops s env).steps schedule).step i)))).1 := by
  obtain ⟨he, h⟩ := finish inside transfers schedule before now
  rw [seen, he]
  exact h _ (Faithful.told _ _ _)

/-- C123 (partial: when no other call receives anything between a call's receive and its end). However the threads take
turns otherwise, in particular whatever the others send, a call that reads or writes an attribute or transfers I/O data
ends with the result it has alone when its socket calls get the same answers. Missing: receives at that time, for which it
is false. -/
theorem c123_apart_partial (inside : ∀ j, Inside (ops j)) (i : Nat) (transfers : Transfers (ops i)) (s : Session)
    (env : Nat → Answer) (schedule : List Nat) (r : Res (ops i).Value)
    (before : ∀ r', ¬ Over i ((Pool.start ops s env).steps schedule) r')
    (now : Over i (((Pool.start ops s env).steps schedule).step i) r)
    (alone : Undisturbed i (((Pool.start ops s env).steps schedule).step i)) :
    r = ((ops i).value (facing s (own i (((Pool.start ops s env).steps schedule).step i)))).1 := by
  obtain ⟨he, h⟩ := finish inside transfers schedule before now
  rw [own, he]
  refine h _ fun k hk => ⟨rfl, fun ⟨sk, d, e⟩ => ?_⟩
  rw [remains_quiet (alone k hk sk d e)]
  rfl

/-! ### C123 is false -/

theorem step_ok {p : Pool ops} {i : Nat} {β : Type} {q : Prog World β} {f : β → Task (ops i).Value}
    (ht : p.tasks i = .piece q f) {b : β} {w' : World} (hq : q p.w = (.ok b, w')) :
    (p.step i).w = w' ∧ (p.step i).tasks i = f b ∧ (p.step i).made = p.made ++ List.replicate (w'.clock - p.w.clock) i ∧
      ∀ j, j ≠ i → (p.step i).tasks j = p.tasks j := by
  rw [step_next ht, hq]
  exact ⟨rfl, p.update_self i _, rfl, fun j hj => p.update_other hj _⟩

theorem step_last {p : Pool ops} {i : Nat} {q : Prog World (ops i).Value} (ht : p.tasks i = .last q) {r : Res (ops i).Value}
    {w' : World} (hq : q p.w = (r, w')) :
    (p.step i).w = w' ∧ (p.step i).tasks i = .done r ∧ (p.step i).made = p.made ++ List.replicate (w'.clock - p.w.clock) i ∧
      ∀ j, j ≠ i → (p.step i).tasks j = p.tasks j := by
  rw [step_next ht, hq]
  exact ⟨rfl, p.update_self i _, rfl, fun j hj => p.update_other hj _⟩

/-- Sending a request and receiving the reply, undisturbed. -/
theorem rr_run {p : Pool ops} {i : Nat} {req : EncapPacket} {after : RRDataResponse → Prog World (ops i).Value}
    (ht : p.tasks i = rrMade req after) {bs : Bytes} (ho : Serializes req.obj bs) (works : Works p.w.env p.w.clock) :
    (p.steps [i, i]).w = p.w.exchanged bs ∧
    (p.steps [i, i]).tasks i = .last (rrEnd req after (delivered p.w.env (p.w.clock + 1)).length) ∧
    (p.steps [i, i]).made = p.made ++ [i, i] ∧ ∀ j, j ≠ i → (p.steps [i, i]).tasks j = p.tasks j := by
  obtain ⟨a1, a2, a3, a4⟩ := step_ok ht (rrGuard_ok (send_works ho .tcp works.1))
  have e := works.2
  have hw : ((p.step i).w.env (p.step i).w.clock).fails = false := by rw [a1]; exact e
  obtain ⟨b1, b2, b3, b4⟩ := step_ok a2 (rrGuard_ok (receiveLength_works hw))
  rw [a1] at b1 b2 b3
  refine ⟨?_, b2, ?_, fun j hj => (b4 j hj).trans (a4 j hj)⟩
  · show ((p.step i).step i).w = _
    rw [b1]
    simp only [World.after, World.exchanged, List.append_assoc, List.cons_append, List.nil_append]
  · show ((p.step i).step i).made = _
    rw [b3, a3]
    simp [World.after]

/-- Receiving a datagram, undisturbed. -/
theorem io_run {p : Pool ops} {i : Nat} {q : Nat → Prog World (ops i).Value} (ht : p.tasks i = ioStart q)
    (works : (p.w.env p.w.clock).fails = false) :
    (p.step i).w = { p.w.after (.received .io (delivered p.w.env p.w.clock) true) with
      s := p.w.s.receiveInto (delivered p.w.env p.w.clock) } ∧
    (p.step i).tasks i = .last (q (delivered p.w.env p.w.clock).length) ∧
    (p.step i).made = p.made ++ [i] ∧ ∀ j, j ≠ i → (p.step i).tasks j = p.tasks j := by
  obtain ⟨a1, a2, a3, a4⟩ := step_ok ht (receiveLength_works works)
  refine ⟨a1, a2, ?_, a4⟩
  rw [a3]
  simp [World.after]

/-- Making up the request of a command. -/
theorem prepare_run {p : Pool ops} {i : Nat} {request : UInt32 → EncapPacket}
    {after : RRDataResponse → Prog World (ops i).Value} (ht : p.tasks i = rrStart request after) :
    (p.step i).w = p.w ∧ (p.step i).tasks i = rrMade (request p.w.s.sessionId) after ∧ (p.step i).made = p.made ∧
      ∀ j, j ≠ i → (p.step i).tasks j = p.tasks j := by
  obtain ⟨a1, a2, a3, a4⟩ := step_ok ht (w' := p.w) (b := ((), request p.w.s.sessionId)) rfl
  refine ⟨a1, a2, ?_, a4⟩
  rw [a3]
  simp

/-- What is left after one other receive. -/
theorem remains_one (sk : Sock) (d d' : Bytes) (before after : List Ev) (hb : ∀ ev ∈ before, ¬ Received ev)
    (ha : ∀ ev ∈ after, ¬ Received ev) :
    remains (before ++ .received sk d' true :: after) d = (d' ++ d.drop d'.length).take d.length := by
  have e1 : ∀ (l : List Ev) (x : Bytes), (∀ ev ∈ l, ¬ Received ev) → l.foldl overwrite x = x := by
    intro l
    induction l with
    | nil => intro x _; rfl
    | cons ev l ih =>
      intro x h
      have e : overwrite x ev = x := by
        have := h ev (List.mem_cons_self ..)
        unfold overwrite
        split
        · exact (this rfl).elim
        · rfl
      rw [List.foldl_cons, e]
      exact ih x fun ev' h' => h ev' (List.mem_cons_of_mem _ h')
  rw [remains, List.foldl_append, List.foldl_cons, e1 before d hb, e1 after _ ha]
  rfl

/-- A call that reads or writes an attribute. -/
theorem transfer_shape {op : Op} (cmd : IsCommand op) (tr : Transfers op) {s : Session} (proper : Proper s op) :
    ∃ request after, op.task = rrStart request after ∧ (∀ n r, Looks n (after r)) ∧
      ∃ bs, Serializes (request s.sessionId).obj bs := by
  cases op with
  | getAttribute δ c init x y z =>
    refine ⟨Session.rrRequest 0x0E (Path.mk3 x y z) none, fun r => Session.onLocal init (r.getResponseDataAs c), ?_,
      fun n r => Looks.onLocal _ _, _, rr_serializes s.sessionId 0x0E (path3 x y z) (data := none) (bs := []) rfl⟩
    show Session.getTask c init x y z = _
    rfl
  | setAttribute x y z d =>
    obtain ⟨bs, h⟩ := proper
    exact ⟨Session.rrRequest 0x10 (Path.mk3 x y z) d, fun _ => pure (), rfl, fun n r => Looks.pure _, _,
      rr_serializes s.sessionId 0x10 (path3 x y z) h⟩
  | createConnection => exact tr.elim
  | closeConnection => exact tr.elim
  | _ => exact cmd.elim

/-- A call that throws without its value throws with it. -/
theorem value_throws {op : Op} {w : World} {e : Exn} (h : (op.run w).1 = .throw e) : (op.value w).1 = .throw e := by
  rw [← (c123_pieces op).2, forget_apply (p := op.value) (w := w) (r := (op.value w).1) (w' := (op.value w).2) rfl] at h
  generalize (op.value w).1 = r at h ⊢
  cases r with
  | ok a => cases h
  | throw x => cases h; rfl
  | ub u => cases h

/-- Two calls. -/
def both (a b : Op) : Nat → Op
  | 0 => a
  | _ => b

/-- The first bytes of an encapsulation packet are its command. -/
theorem Spec.Packet.command {bytes payload : Bytes} {c : UInt16} {h : UInt32} (p : Packet bytes c h payload) :
    bytes.take 2 = le 2 c.toNat := by
  obtain ⟨h, tail, rfl, _, _, rfl⟩ := p
  simp [header, le]

/-- C123 is false. If a datagram arrives on the I/O socket and is received by another thread after this thread has received
the reply to its command and before it has parsed it, the command fails, however good the reply: every datagram of at
least two bytes does that, unless it begins with the command code of the reply. -/
theorem c123_violated (op : Op) (cmd : IsCommand op) (tr : Transfers op) (s : Session) (proper : Proper s op)
    (env : Nat → Answer) (works : ∀ k, k < 3 → (env k).fails = false) (datagram : 2 ≤ (delivered env 2).length)
    (other : (delivered env 2).take 2 ≠ [0x6F, 0]) :
    own 0 ((Pool.start (both op .receiveIOPacket) s env).steps [0, 0, 0, 1, 0]) = [env 0, env 1] ∧
    ∃ what, ((Pool.start (both op .receiveIOPacket) s env).steps [0, 0, 0, 1, 0]).tasks 0 =
      .done (.throw (runtimeError what)) := by
  obtain ⟨request, after, ht, hl, bs, ho⟩ := transfer_shape cmd tr proper
  have hin : ∀ j, Inside (both op .receiveIOPacket j) := by
    intro j
    cases j with
    | zero => cases op <;> first | trivial | exact cmd.elim
    | succ j => trivial
  have fin := fun r => finish (i := 0) (s := s) (env := env) hin tr [0, 0, 0, 1] (r := r)
  have hst : ((Pool.start (both op .receiveIOPacket) s env).steps [0, 0, 0, 1]).step 0 =
    (Pool.start (both op .receiveIOPacket) s env).steps [0, 0, 0, 1, 0] := rfl
  rw [hst] at fin
  have hs4 : (Pool.start (both op .receiveIOPacket) s env).steps [0, 0, 0, 1] =
    (((Pool.start (both op .receiveIOPacket) s env).step 0).steps [0, 0]).step 1 := rfl
  have hs5 : (Pool.start (both op .receiveIOPacket) s env).steps [0, 0, 0, 1, 0] =
    ((((Pool.start (both op .receiveIOPacket) s env).step 0).steps [0, 0]).step 1).step 0 := rfl
  rw [hs4] at fin
  rw [hs5] at fin ⊢
  clear hst hs4 hs5
  have t0 : (Pool.start (both op .receiveIOPacket) s env).tasks 0 = rrStart request after := ht
  have t1 : (Pool.start (both op .receiveIOPacket) s env).tasks 1 = Session.receiveTask := rfl
  have w0 : (Pool.start (both op .receiveIOPacket) s env).w = ⟨s, env, 0, []⟩ := rfl
  have m0 : (Pool.start (both op .receiveIOPacket) s env).made = [] := rfl
  generalize Pool.start (both op .receiveIOPacket) s env = p0 at *
  obtain ⟨a1, a2, a3, a4⟩ := prepare_run t0
  rw [w0] at a1 a2
  rw [m0] at a3
  have a5 := (a4 1 (by decide)).trans t1
  generalize p0.step 0 = p1 at *
  obtain ⟨b1, b2, b3, b4⟩ := rr_run a2 ho (by rw [a1]; exact ⟨works 0 (by omega), works 1 (by omega)⟩)
  have b5 := (b4 1 (by decide)).trans a5
  rw [a1] at b1 b2
  rw [a3] at b3
  generalize p1.steps [0, 0] = p3 at *
  obtain ⟨c1, c2, c3, c4⟩ := io_run (i := 1) b5 (by rw [b1]; exact works 2 (by omega))
  have c5 := (c4 0 (by decide)).trans b2
  rw [b1] at c1
  rw [b3] at c3
  generalize p3.step 1 = p4 at *
  obtain ⟨r, e, _⟩ := Looks.rrEnd (request s.sessionId) (hl _) p4.w p4.w rfl rfl
  obtain ⟨d1, d2, d3, d4⟩ := step_last c5 e
  have hmine : mine 0 (p4.step 0).made = [0, 1] := by
    rw [d3, c3]
    simp [mine, List.zipIdx]
  obtain ⟨henv, fin⟩ := fin r (fun r' h => by rw [Over, c5] at h; cases h) d2
  refine ⟨by rw [own, hmine, henv]; rfl, ?_⟩
  have fin := fin _ (Faithful.told _ _ _)
  rw [d1, hmine, c1] at fin
  have hbytes : ∀ {c : UInt32} {payload : Bytes}, ¬ Packet ((told env ([.sent .tcp bs true,
      .received .tcp (delivered env 1) true, .received .io (delivered env 2) true]) 1).data.take 4096) 0x6F c payload := by
    intro c payload hp
    rw [told_take] at hp
    have e : List.drop (1 + 1) [Ev.sent .tcp bs true, .received .tcp (delivered env 1) true,
      .received .io (delivered env 2) true] = [] ++ .received .io (delivered env 2) true :: [] := rfl
    rw [e, remains_one _ _ _ _ _ (by simp) (by simp)] at hp
    have h2 := hp.command
    have hlen := congrArg List.length h2
    rw [List.length_take, List.length_take, le_length] at hlen
    rw [List.take_take, Nat.min_eq_left (by omega), List.take_append_of_le_length datagram] at h2
    exact other h2
  have hv := refused_throws op cmd (facing s ([0, 1].map (told env [.sent .tcp bs true,
      .received .tcp (delivered env 1) true, .received .io (delivered env 2) true]))) proper
      ⟨works 0 (by omega), works 1 (by omega)⟩ (by
        rintro ⟨_, _, _, _, ⟨_, hp, _⟩, _⟩
        exact hbytes hp) (by
        rintro ⟨_, ⟨_, hp, _⟩, _⟩
        exact hbytes hp)
  obtain ⟨what, w', hv, _⟩ := hv
  refine ⟨what, ?_⟩
  rw [d2, fin]
  congr 1
  exact value_throws (congrArg Prod.fst hv)

/-- A packet has at least four bytes for every item. -/
theorem cpf_at_least (l : List (UInt16 × Bytes)) : 2 + 4 * l.length ≤ (cpf l).length := by
  rw [cpf, List.length_append, le_length]
  have : 4 * l.length ≤ (l.map fun i => item i.1 i.2).flatten.length := by
    induction l with
    | nil => simp
    | cons i l ih =>
      simp only [List.map_cons, List.flatten_cons, List.length_append, item, le_length, List.length_cons] at ih ⊢
      omega
  omega

/-- C123 is false in the other direction, too. If the reply to a command is received by another thread after this thread
has received a datagram and before it has parsed it, `receiveIOPacket` fails, however good the datagram, if it has between
2 and 445 bytes: it is taken for a packet with 111 items. -/
theorem c123_violated_io (op : Op) (cmd : IsCommand op) (tr : Transfers op) (s : Session) (proper : Proper s op)
    (env : Nat → Answer) (works : ∀ k, k < 3 → (env k).fails = false) (datagram : 2 ≤ (delivered env 0).length)
    (short : (delivered env 0).length < 446) (reply : (delivered env 2).take 2 = [0x6F, 0]) :
    own 1 ((Pool.start (both op .receiveIOPacket) s env).steps [1, 0, 0, 0, 1]) = [env 0] ∧
    ∃ what, ((Pool.start (both op .receiveIOPacket) s env).steps [1, 0, 0, 0, 1]).tasks 1 =
      .done (.throw (lengthError what)) := by
  obtain ⟨request, after, ht, hl, bs, ho⟩ := transfer_shape cmd tr proper
  have hin : ∀ j, Inside (both op .receiveIOPacket j) := by
    intro j
    cases j with
    | zero => cases op <;> first | trivial | exact cmd.elim
    | succ j => trivial
  have fin := fun r => finish (i := 1) (s := s) (env := env) hin trivial [1, 0, 0, 0] (r := r)
  have hst : ((Pool.start (both op .receiveIOPacket) s env).steps [1, 0, 0, 0]).step 1 =
    (Pool.start (both op .receiveIOPacket) s env).steps [1, 0, 0, 0, 1] := rfl
  rw [hst] at fin
  have hs4 : (Pool.start (both op .receiveIOPacket) s env).steps [1, 0, 0, 0] =
    (((Pool.start (both op .receiveIOPacket) s env).step 1).step 0).steps [0, 0] := rfl
  have hs5 : (Pool.start (both op .receiveIOPacket) s env).steps [1, 0, 0, 0, 1] =
    ((((Pool.start (both op .receiveIOPacket) s env).step 1).step 0).steps [0, 0]).step 1 := rfl
  rw [hs4] at fin
  rw [hs5] at fin ⊢
  clear hst hs4 hs5
  have t0 : (Pool.start (both op .receiveIOPacket) s env).tasks 0 = rrStart request after := ht
  obtain ⟨q, hq, t1⟩ : ∃ q : Nat → Prog World CPFPacket, (∀ n, Looks n (q n)) ∧
    (Pool.start (both op .receiveIOPacket) s env).tasks 1 = ioStart q := by
    have h := shape_task (op := .receiveIOPacket) trivial
    refine ⟨_, fun n => ?_, rfl⟩
    exact Looks.buffer (f := fun bytes => Session.onLocal ⟨[]⟩ (fun p =>
      match CPFPacket.deserialize (p, .buffer (BufferReader.new bytes)) with
      | (r, (p', _)) => (r, p'))) fun _ => Looks.onLocal _ _
  have w0 : (Pool.start (both op .receiveIOPacket) s env).w = ⟨s, env, 0, []⟩ := rfl
  have m0 : (Pool.start (both op .receiveIOPacket) s env).made = [] := rfl
  generalize Pool.start (both op .receiveIOPacket) s env = p0 at *
  obtain ⟨c1, c2, c3, c4⟩ := io_run (i := 1) t1 (by rw [w0]; exact works 0 (by omega))
  have c5 := (c4 0 (by decide)).trans t0
  rw [w0] at c1 c2
  rw [m0] at c3
  generalize p0.step 1 = p1 at *
  obtain ⟨a1, a2, a3, a4⟩ := prepare_run c5
  have a5 := (a4 1 (by decide)).trans c2
  rw [c1] at a1 a2
  rw [c3] at a3
  generalize p1.step 0 = p2 at *
  obtain ⟨b1, b2, b3, b4⟩ := rr_run a2 ho (by rw [a1]; exact ⟨works 1 (by omega), works 2 (by omega)⟩)
  have b5 := (b4 1 (by decide)).trans a5
  rw [a1] at b1
  rw [a3] at b3
  generalize p2.steps [0, 0] = p4 at *
  obtain ⟨r, e, _⟩ := hq _ p4.w p4.w rfl rfl
  obtain ⟨d1, d2, d3, d4⟩ := step_last b5 e
  have hmine : mine 1 (p4.step 1).made = [0] := by
    rw [d3, b3]
    simp [mine, List.zipIdx]
  obtain ⟨henv, fin⟩ := fin r (fun r' h => by rw [Over, b5] at h; cases h) d2
  refine ⟨by rw [own, hmine, henv]; rfl, ?_⟩
  have fin := fin _ (Faithful.told _ _ _)
  rw [d1, hmine, b1] at fin
  have hv := c58_truncated (facing s ([0].map (told env [.received .io (delivered env 0) true, .sent .tcp bs true,
      .received .tcp (delivered env 2) true]))) (works 0 (by omega)) (by
    rintro ⟨l, tail, ok, hp⟩
    have hp : (told env [.received .io (delivered env 0) true, .sent .tcp bs true,
      .received .tcp (delivered env 2) true] 0).data.take 4096 = cpf l ++ tail := hp
    rw [told_take] at hp
    have e : List.drop (0 + 1) [Ev.received .io (delivered env 0) true, .sent .tcp bs true,
      .received .tcp (delivered env 2) true] = [.sent .tcp bs true] ++ .received .tcp (delivered env 2) true :: [] := rfl
    rw [e, remains_one _ _ _ _ _ (by simp [Received]) (by simp)] at hp
    have hlen := congrArg List.length hp
    rw [List.length_append, List.length_take] at hlen
    have hc := cpf_at_least l
    have h2 := congrArg (List.take 2) hp
    have hr := congrArg List.length reply
    rw [List.length_take] at hr
    simp only [List.length_cons, List.length_nil] at hr
    rw [List.take_take, Nat.min_eq_left (by omega), List.take_append_of_le_length (by omega), reply] at h2
    have h3 : (cpf l ++ tail).take 2 = le 2 l.length := by
      rw [cpf, List.append_assoc, List.take_append_of_le_length (by simp), List.take_of_length_le (by simp)]
    rw [h3] at h2
    have h4 : l.length = 111 := by
      simp only [le, List.range, List.range.loop, List.map_cons, List.map_nil, List.cons.injEq, and_true] at h2
      have := ok.1
      have a := congrArg UInt8.toNat h2.1
      have b := congrArg UInt8.toNat h2.2
      simp at a b
      omega
    omega)
  obtain ⟨_, what, w', hv⟩ := hv
  refine ⟨what, ?_⟩
  rw [d2, fin]
  congr 1
  exact congrArg Prod.fst hv

/-! ### Cases -/

/-- An open session. -/
def seven : Session := { Session.new 1 2 3 4 [] with sessionId := 7 }

/-- A request is sent, a good reply is received, and then a good datagram. -/
def busy : Nat → Answer
  | 0 => ⟨false, [], 100⟩
  | 1 => ⟨false, replyWith 7 0 0x90 0 [], 0⟩
  | _ => ⟨false, cpf [(0x8002, seqAddress 1 5), (0xB1, [7, 8])], 0⟩

/-- Writing an attribute while another thread is receiving: alone, each of them would succeed. -/
example : IsCommand (.setAttribute 1 2 3 none) ∧ Transfers (.setAttribute 1 2 3 none) ∧
    Proper seven (.setAttribute 1 2 3 none) ∧ (∀ k, k < 3 → (busy k).fails = false) ∧ 2 ≤ (delivered busy 2).length ∧
    (delivered busy 2).take 2 ≠ [0x6F, 0] ∧
    ((Op.setAttribute 1 2 3 none).value (facing seven [busy 0, busy 1])).1 = .ok () :=
  ⟨trivial, trivial, ⟨[], rfl⟩, by decide, by decide +kernel, by decide +kernel, by decide +kernel⟩

/-- The other way round: the datagram first. -/
def busy' : Nat → Answer
  | 0 => busy 2
  | 1 => busy 0
  | _ => busy 1

example : (∀ k, k < 3 → (busy' k).fails = false) ∧ 2 ≤ (delivered busy' 0).length ∧ (delivered busy' 0).length < 446 ∧
    (delivered busy' 2).take 2 = [0x6F, 0] ∧
    (match (Op.value .receiveIOPacket (facing seven [busy' 0])).1 with | .ok _ => true | _ => false) = true :=
  ⟨by decide, by decide +kernel, by decide +kernel, by decide +kernel, by decide +kernel⟩

/-- Sending in the meantime does no harm. -/
def calm : Nat → Answer
  | 0 => ⟨false, [], 100⟩
  | 1 => ⟨false, [], 100⟩
  | 2 => ⟨false, replyWith 7 0 0x90 0 [], 0⟩
  | _ => ⟨false, [], 100⟩

example : let p := (Pool.start (both (.setAttribute 1 2 3 none) (.sendIOPacket ⟨[]⟩)) seven calm).steps [0, 0, 1, 0]
    (match p.tasks 0 with | .done _ => false | _ => true) = true ∧
    (match (p.step 0).tasks 0 with | .done (.ok ()) => true | _ => false) = true ∧
    (p.step 0).made = [0, 1, 0] ∧ Undisturbed 0 (p.step 0) := by
  refine ⟨by decide +kernel, by decide +kernel, by decide +kernel, ?_⟩
  generalize hp : ((Pool.start (both (.setAttribute 1 2 3 none) (.sendIOPacket ⟨[]⟩)) seven calm).steps [0, 0, 1, 0]).step 0 = p
  have hm : mine 0 p.made = [0, 2] := by rw [← hp]; decide +kernel
  have h0 : ∀ s d, p.w.trace[0]? ≠ some (.received s d true) := by
    have : (match p.w.trace[0]? with | some (.sent ..) => true | _ => false) = true := by rw [← hp]; decide +kernel
    intro s d e
    rw [e] at this
    cases this
  have h3 : p.w.trace.drop 3 = [] := by rw [← hp]; decide +kernel
  intro k hk s d e ev hev
  rw [hm] at hk
  rcases List.mem_cons.mp hk with rfl | hk
  · exact (h0 s d e).elim
  · rw [List.mem_singleton.mp hk, h3] at hev
    cases hev

end Eip
