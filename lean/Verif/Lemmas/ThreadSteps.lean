import Verif.Lemmas.Threads
import Verif.Lemmas.Buffer
import Verif.Spec.Threads
/-
What the steps of a pool do.
-/
namespace Eip
open Spec

variable {α β : Type}

/-! ### Effects of pieces -/

/-- From `w` to `w'` these socket calls were made; nothing but the receive buffer changed, the lists of connections and the
next numbers aside. -/
structure Moves (w w' : World) (evs : List Ev) : Prop where
  env : w'.env = w.env
  id : w'.s.sessionId = w.s.sessionId
  trace : w'.trace = w.trace ++ evs
  clock : w'.clock = w.clock + evs.length
  buffer : w'.s.recvBuffer = evs.foldl overwrite w.s.recvBuffer

theorem Moves.refl (w : World) : Moves w w [] := ⟨rfl, rfl, by simp, rfl, rfl⟩

theorem Moves.trans {a b c : World} {e e' : List Ev} (h : Moves a b e) (h' : Moves b c e') : Moves a c (e ++ e') :=
  ⟨h'.env.trans h.env, h'.id.trans h.id, by rw [h'.trace, h.trace, List.append_assoc],
    by rw [h'.clock, h.clock, List.length_append, Nat.add_assoc], by rw [h'.buffer, h.buffer, List.foldl_append]⟩

/-- A piece of a call that neither opens nor closes the session. -/
def Moving (p : Prog World α) : Prop := ∀ w, ∃ evs, Moves w (p w).2 evs

theorem Moving.const {p : Prog World α} (h : ∀ w, (p w).2 = w) : Moving p := fun w => ⟨[], by rw [h]; exact Moves.refl w⟩
theorem Moving.pure (a : α) : Moving (Pure.pure a : Prog World α) := Moving.const fun _ => rfl
theorem Moving.raise (e : Exn) : Moving (Prog.raise e : Prog World α) := Moving.const fun _ => rfl
theorem Moving.undef (u : UB) : Moving (Prog.undef u : Prog World α) := Moving.const fun _ => rfl
theorem Moving.get : Moving (Prog.get : Prog World World) := Moving.const fun _ => rfl

theorem Moving.bind {p : Prog World α} {f : α → Prog World β} (hp : Moving p) (hf : ∀ a, Moving (f a)) :
    Moving (p >>= f) := by
  intro w
  obtain ⟨evs, h⟩ := hp w
  simp only [Prog.bind_def, Prog.andThen]
  generalize p w = r at h ⊢
  obtain ⟨(a | e | u), w'⟩ := r
  · obtain ⟨evs', h'⟩ := hf a w'
    exact ⟨_, h.trans h'⟩
  · exact ⟨_, h⟩
  · exact ⟨_, h⟩

theorem Moving.rrGuard {p : Prog World α} (hp : Moving p) : Moving (Session.rrGuard p) := by
  intro w
  obtain ⟨evs, h⟩ := hp w
  simp only [Session.rrGuard, Session.catchLengthLogic, Prog.tryCatch]
  generalize p w = r at h ⊢
  obtain ⟨(a | e | u), w'⟩ := r
  · exact ⟨_, h⟩
  · refine ⟨evs, ?_⟩
    simp only []
    split
    · exact h
    · split <;> exact h
  · exact ⟨_, h⟩

theorem Moving.sockCall {ev : Answer → Ev} (h : ∀ a b, overwrite b (ev a) = b) : Moving (sockCall ev) := by
  intro w
  rw [sockCall_eq]
  split <;> exact ⟨[_], rfl, rfl, rfl, rfl, by simp [h]; rfl⟩

theorem Moving.sockReceive (s : Sock) : Moving (sockReceive s) := by
  intro w
  rw [sockReceive_eq]
  split <;> exact ⟨[_], rfl, rfl, rfl, rfl, rfl⟩

theorem Moving.sockSend (s : Sock) (o : Obj) : Moving (sockSend s o) := by
  refine Moving.bind (Moving.const fun w => ?_) fun _ =>
    Moving.bind (Moving.sockCall (fun _ _ => rfl)) (fun _ => Moving.pure _)
  simp only [serializeToVector]
  rcases o.serialize (.buffer (BufferWriter.new (List.replicate o.getLength 0))) with ⟨(_ | e | u), (bw | sw)⟩ <;> rfl

theorem Moving.length (s : Sock) : Moving (do let bytes ← Eip.sockReceive s; Pure.pure bytes.length) :=
  Moving.bind (Moving.sockReceive s) fun _ => Moving.pure _

/-! ### Pieces that only look -/

/-- A program that leaves the world as it is, and whose result depends only on the session id and the first `n` bytes of the
receive buffer. -/
def Looks (n : Nat) (p : Prog World α) : Prop := ∀ w w', w.s.sessionId = w'.s.sessionId →
  w.s.recvBuffer.take n = w'.s.recvBuffer.take n → ∃ r, p w = (r, w) ∧ p w' = (r, w')

theorem Looks.moving {n : Nat} {p : Prog World α} (h : Looks n p) : Moving p :=
  Moving.const fun w => by obtain ⟨r, h, _⟩ := h w w rfl rfl; rw [h]

theorem Looks.const {n : Nat} {p : Prog World α} (r : Res α) (h : ∀ w, p w = (r, w)) : Looks n p :=
  fun w w' _ _ => ⟨r, h w, h w'⟩

theorem Looks.pure {n : Nat} (a : α) : Looks n (Pure.pure a : Prog World α) := Looks.const _ fun _ => rfl
theorem Looks.raise {n : Nat} (e : Exn) : Looks n (Prog.raise e : Prog World α) := Looks.const _ fun _ => rfl

theorem Looks.bind {n : Nat} {p : Prog World α} {f : α → Prog World β} (hp : Looks n p) (hf : ∀ a, Looks n (f a)) :
    Looks n (p >>= f) := by
  intro w w' h h'
  obtain ⟨r, e, e'⟩ := hp w w' h h'
  obtain (a | x | u) := r
  · rw [Prog.bind_ok e, Prog.bind_ok e']
    exact hf a w w' h h'
  · rw [Prog.bind_throw e, Prog.bind_throw e']
    exact ⟨_, rfl, rfl⟩
  · rw [Prog.bind_ub e, Prog.bind_ub e']
    exact ⟨_, rfl, rfl⟩

theorem Looks.catchLL {n : Nat} {p : Prog World α} (hp : Looks n p) (x y : Exn) :
    Looks n (Session.catchLengthLogic p (Prog.raise x) (Prog.raise y)) := by
  intro w w' h h'
  obtain ⟨r, e, e'⟩ := hp w w' h h'
  simp only [Session.catchLengthLogic, Prog.tryCatch, e, e']
  obtain (a | x | u) := r
  · exact ⟨_, rfl, rfl⟩
  · simp only []
    split
    · exact ⟨_, rfl, rfl⟩
    · split <;> exact ⟨_, rfl, rfl⟩
  · exact ⟨_, rfl, rfl⟩

theorem Looks.onLocal {n : Nat} {δ : Type} (init : δ) (p : Prog δ Unit) : Looks n (Session.onLocal (σ := World) init p) := by
  intro w w' _ _
  simp only [Session.onLocal]
  rcases p init with ⟨(_ | _ | _), _⟩ <;> exact ⟨_, rfl, rfl⟩

theorem Looks.parsePacket {n : Nat} (bytes : Bytes) : Looks n (Session.parsePacket (σ := World) bytes) := by
  intro w w' _ _
  simp only [Session.parsePacket]
  rcases EncapPacket.deserialize (EncapPacket.new, .buffer (BufferReader.new bytes)) with ⟨(_ | e | u), d, r⟩ <;>
    exact ⟨_, rfl, rfl⟩

theorem Looks.check {n : Nat} (p : EncapPacket) (c : UInt16) : Looks n (Session.checkPacket p c) := by
  intro w w' h _
  simp only [Session.checkPacket, Prog.get, Prog.bind_def, Prog.andThen, h]
  split
  · exact ⟨_, rfl, rfl⟩
  · split
    · exact ⟨_, rfl, rfl⟩
    · split <;> exact ⟨_, rfl, rfl⟩

theorem Looks.buffer {n : Nat} {f : Bytes → Prog World α} (h : ∀ b, Looks n (f b)) :
    Looks n (Prog.get >>= fun w => f (w.s.recvBuffer.take n)) := by
  intro w w' h1 h2
  obtain ⟨r, e, e'⟩ := h (w.s.recvBuffer.take n) w w' h1 h2
  refine ⟨r, e, ?_⟩
  rw [h2] at e'
  exact e'

theorem Looks.parseReply (req : EncapPacket) (n : Nat) : Looks n (Session.parseReply req n) := by
  have h := Looks.buffer (n := n) (f := fun bytes => (do
    let result ← Session.parsePacket bytes
    Session.checkPacket result req.header.command
    Pure.pure result : Prog World EncapPacket))
    fun bytes => Looks.bind (Looks.parsePacket bytes) fun r => Looks.bind (Looks.check r req.header.command) fun _ => Looks.pure r
  exact h

theorem Looks.rrRest {n : Nat} (r : EncapPacket) : Looks n (Session.rrRest r) := by
  unfold Session.rrRest
  refine Looks.bind (Looks.catchLL (Looks.onLocal _ _) _ _) fun respData => ?_
  by_cases h : respData.getGeneralStatus ≠ 0
  · rw [if_pos h]
    exact Looks.raise _
  · rw [if_neg h]
    exact Looks.pure _

/-! ### Effects of calls -/

/-- Every piece of a call has the property. -/
def AllPieces (P : ∀ {β : Type}, Prog World β → Prop) : Task α → Prop
  | .done _ => True
  | .next _ p k => P p ∧ ∀ r, AllPieces P (k r)

theorem AllPieces.piece {P : ∀ {β : Type}, Prog World β → Prop} {p : Prog World β} {f : β → Task α} (h : P p)
    (hf : ∀ b, AllPieces P (f b)) : AllPieces P (.piece p f) := by
  refine ⟨h, fun r => ?_⟩
  rcases r with _ | _ | _
  · exact hf _
  · trivial
  · trivial

theorem AllPieces.last {P : ∀ {β : Type}, Prog World β → Prop} {p : Prog World α} (h : P p) : AllPieces P (.last p) :=
  ⟨h, fun _ => trivial⟩

theorem moving_rr {κ : Type} (service : UInt8) (path : Path) {before : Prog World (κ × Option Obj)}
    {after : κ → RRDataResponse → Prog World α} (hb : Moving before) (ha : ∀ x r, Moving (after x r)) :
    AllPieces Moving (Session.rrTask service path before after) :=
  .piece (Moving.bind hb fun _ => Moving.bind Moving.get fun _ => Moving.pure _) fun _ =>
  .piece (Moving.rrGuard (Moving.sockSend _ _)) fun _ =>
  .piece (Moving.rrGuard (Moving.length _)) fun n =>
  .last (Moving.bind (Moving.rrGuard (Looks.parseReply _ n).moving) fun _ =>
    Moving.bind (Looks.rrRest (n := 0) _).moving fun _ => ha _ _)

theorem Moving.modify {f : World → World} (h : ∀ w, Moves w (f w) []) : Moving (Prog.modify f) := fun w => ⟨[], h w⟩

theorem moving_get {δ : Type} (c : Class δ) (init : δ) (x y z : UInt8) : AllPieces Moving (Session.getTask c init x y z) := by
  unfold Session.getTask
  exact moving_rr _ _ (Moving.pure _) fun _ _ => (Looks.onLocal (n := 0) _ _).moving

theorem moving_set (x y z : UInt8) (d : Option Obj) : AllPieces Moving (Session.setTask x y z d) := by
  unfold Session.setTask
  exact moving_rr _ _ (Moving.pure _) fun _ _ => Moving.pure _

theorem moving_task {op : Op} (h : Inside op) : AllPieces Moving op.task := by
  cases op with
  | «open» => exact h.elim
  | close => exact h.elim
  | getAttribute δ c init x y z => exact moving_get c init x y z
  | setAttribute x y z d => exact moving_set x y z d
  | createConnection o t =>
    show AllPieces Moving (Session.createTask o t)
    unfold Session.createTask
    refine moving_rr _ _ (Moving.bind Moving.get fun _ => Moving.bind (Moving.modify fun w => ?_) fun _ => Moving.pure _)
      fun conn r => Moving.bind (Looks.onLocal (n := 0) _ _).moving fun result => ?_
    · exact ⟨rfl, rfl, by simp, rfl, rfl⟩
    · generalize conn.verifyForwardOpenResult result = q
      rcases q with ⟨(_ | _), c⟩
      · exact Moving.raise _
      · exact Moving.bind (Moving.modify fun w => ⟨rfl, rfl, by simp, rfl, rfl⟩) fun _ =>
          Moving.bind Moving.get fun _ => Moving.pure _
  | closeConnection n =>
    show AllPieces Moving (Session.closeConnectionTask n)
    unfold Session.closeConnectionTask
    refine moving_rr _ _ (Moving.bind Moving.get fun w => ?_)
      fun conn r => Moving.bind (Looks.onLocal (n := 0) _ _).moving fun result => Moving.bind Moving.get fun w => ?_
    · cases w.s.connections[n]? with
      | none => exact Moving.undef _
      | some c => exact Moving.pure _
    · cases w.s.connections[n]? with
      | none => exact Moving.undef _
      | some c =>
        simp only []
        split
        · exact Moving.modify fun w => ⟨rfl, rfl, by simp, rfl, rfl⟩
        · exact Moving.raise _
  | getConnection n =>
    refine .last (Moving.bind Moving.get fun w => ?_)
    cases w.s.connections[n]? with
    | none => exact Moving.undef _
    | some c => exact Moving.pure _
  | receiveIOPacket =>
    exact .piece (Moving.length _) fun n => .last (Moving.bind Moving.get fun w => (Looks.onLocal (n := 0) _ _).moving)
  | sendIOPacket p => exact .last (Moving.bind (Moving.sockSend _ _) fun _ => Moving.pure _)

end Eip
