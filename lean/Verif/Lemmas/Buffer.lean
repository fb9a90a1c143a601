import Verif.Spec.Memory
import Verif.Lemmas.Oblivious
/-
The receive buffer of a session is determined by what its sockets have delivered.
-/
namespace Eip
open Spec

variable {α β : Type}

/-- From `w` to `w'` the receive buffer changed as the new socket events say. -/
def Tracks (w w' : World) : Prop :=
  ∃ evs, w'.trace = w.trace ++ evs ∧ w'.s.recvBuffer = evs.foldl overwrite w.s.recvBuffer

theorem Tracks.refl (w : World) : Tracks w w := ⟨[], by simp, rfl⟩

theorem Tracks.trans {a b c : World} (h : Tracks a b) (h' : Tracks b c) : Tracks a c := by
  obtain ⟨e, h1, h2⟩ := h
  obtain ⟨e', h1', h2'⟩ := h'
  exact ⟨e ++ e', by rw [h1', h1, List.append_assoc], by rw [h2', h2, List.foldl_append]⟩

/-- `p` changes the receive buffer only by receiving. -/
def Tracking (p : Prog World α) : Prop := ∀ w, Tracks w (p w).2

theorem Tracking.pure (a : α) : Tracking (Pure.pure a : Prog World α) := fun w => Tracks.refl w
theorem Tracking.raise (e : Exn) : Tracking (Prog.raise e : Prog World α) := fun w => Tracks.refl w
theorem Tracking.undef (u : UB) : Tracking (Prog.undef u : Prog World α) := fun w => Tracks.refl w
theorem Tracking.get : Tracking (Prog.get : Prog World World) := fun w => Tracks.refl w

theorem Tracking.bind {p : Prog World α} {f : α → Prog World β} (hp : Tracking p) (hf : ∀ a, Tracking (f a)) :
    Tracking (p >>= f) := by
  intro w
  have h := hp w
  simp only [Prog.bind_def, Prog.andThen]
  generalize p w = r at h ⊢
  obtain ⟨(a | e | u), w'⟩ := r
  · exact h.trans (hf a w')
  · exact h
  · exact h

theorem Tracking.tryCatch {p : Prog World α} {f : Exn → Prog World α} (hp : Tracking p) (hf : ∀ e, Tracking (f e)) :
    Tracking (Prog.tryCatch p f) := by
  intro w
  have h := hp w
  simp only [Prog.tryCatch]
  generalize p w = r at h ⊢
  obtain ⟨(a | e | u), w'⟩ := r
  · exact h
  · exact h.trans (hf e w')
  · exact h

theorem Tracking.catchLL {p a b : Prog World α} (hp : Tracking p) (ha : Tracking a) (hb : Tracking b) :
    Tracking (Session.catchLengthLogic p a b) := by
  refine Tracking.tryCatch hp (fun e => ?_)
  split
  · exact ha
  · split
    · exact hb
    · exact Tracking.raise e

/-- Programs that do not touch the world at all. -/
theorem Tracking.const {p : Prog World α} (h : ∀ w, (p w).2 = w) : Tracking p := fun w => by rw [h]; exact Tracks.refl w

theorem Tracking.sockCall {ev : Answer → Ev} (h : ∀ a b, overwrite b (ev a) = b) : Tracking (sockCall ev) := by
  intro w
  rw [sockCall_eq]
  split <;> exact ⟨[_], rfl, by simp [h]; rfl⟩

theorem Tracking.sockReceive (s : Sock) : Tracking (sockReceive s) := by
  intro w
  rw [sockReceive_eq]
  split <;> exact ⟨[_], rfl, rfl⟩

theorem Tracking.onLocal {δ : Type} (init : δ) (p : Prog δ Unit) : Tracking (Session.onLocal (σ := World) init p) := by
  refine Tracking.const (fun w => ?_)
  simp only [Session.onLocal]
  rcases p init with ⟨(_ | _ | _), _⟩ <;> rfl

theorem Tracking.parsePacket (bytes : Bytes) : Tracking (Session.parsePacket (σ := World) bytes) := by
  refine Tracking.const (fun w => ?_)
  simp only [Session.parsePacket]
  rcases EncapPacket.deserialize (EncapPacket.new, .buffer (BufferReader.new bytes)) with ⟨(_ | e | u), d, r⟩ <;> rfl

theorem Tracking.toVector (n : Nat) (p : Prog Writer Unit) : Tracking (serializeToVector (σ := World) n p) := by
  refine Tracking.const (fun w => ?_)
  simp only [serializeToVector]
  rcases p (.buffer (BufferWriter.new (List.replicate n 0))) with ⟨(_ | e | u), (bw | sw)⟩ <;> rfl

theorem Tracking.sockSend (s : Sock) (o : Obj) : Tracking (sockSend s o) :=
  Tracking.bind (Tracking.toVector _ _) (fun _ =>
    Tracking.bind (Tracking.sockCall (fun _ _ => rfl)) (fun _ => Tracking.pure _))

theorem Tracking.check (p : EncapPacket) (c : UInt16) : Tracking (Session.checkPacket p c) := by
  refine Tracking.bind Tracking.get (fun w => ?_)
  split
  · exact Tracking.raise _
  · split
    · exact Tracking.raise _
    · split
      · exact Tracking.raise _
      · exact Tracking.pure _

theorem Tracking.sendCommand (req : EncapPacket) : Tracking (Session.sendCommand req) :=
  Tracking.bind (Tracking.sockSend _ _) (fun _ => Tracking.bind (Tracking.sockReceive _) (fun _ =>
    Tracking.bind (Tracking.parsePacket _) (fun _ => Tracking.bind (Tracking.check _ _) (fun _ => Tracking.pure _))))

theorem Tracking.sockOpen (s : Sock) (h p : String) : Tracking (sockOpen s h p) :=
  Tracking.bind (Tracking.sockCall (fun _ _ => rfl)) (fun _ => Tracking.pure _)
theorem Tracking.sockClose (s : Sock) : Tracking (sockClose s) :=
  Tracking.bind (Tracking.sockCall (fun _ _ => rfl)) (fun _ => Tracking.pure _)
theorem Tracking.closeSockets : Tracking Session.closeSockets :=
  Tracking.bind (Tracking.sockClose _) (fun _ => Tracking.sockClose _)

theorem Tracking.rr (service : UInt8) (path : Path) (data : Option Obj) :
    Tracking (Session.sendRRDataCommand service path data) := by
  refine Tracking.bind Tracking.get (fun w => ?_)
  refine Tracking.bind (Tracking.catchLL (Tracking.sendCommand _) (Tracking.raise _) (Tracking.raise _)) (fun r => ?_)
  refine Tracking.bind (Tracking.catchLL (Tracking.onLocal _ _) (Tracking.raise _) (Tracking.raise _)) (fun d => ?_)
  split
  · exact Tracking.raise _
  · exact Tracking.pure _

theorem Tracking.modify {f : World → World} (h : ∀ w, (f w).trace = w.trace ∧ (f w).s.recvBuffer = w.s.recvBuffer) :
    Tracking (Prog.modify f) := fun w => ⟨[], by rw [List.append_nil]; exact (h w).1, (h w).2⟩

theorem Tracking.open (h p i : String) : Tracking (Session.open h p i) := by
  refine Tracking.bind (Tracking.sockOpen _ _ _) (fun _ => ?_)
  refine Tracking.bind (Tracking.sockOpen _ _ _) (fun _ => ?_)
  refine Tracking.bind (Tracking.catchLL (Tracking.sendCommand _)
    (Tracking.bind Tracking.closeSockets (fun _ => Tracking.raise _))
    (Tracking.bind Tracking.closeSockets (fun _ => Tracking.raise _))) (fun r => ?_)
  refine Tracking.bind (Tracking.catchLL (Tracking.bind (Tracking.onLocal _ _) (fun _ => Tracking.pure _))
    (Tracking.pure _) (Tracking.pure _)) (fun d => ?_)
  split
  · split
    · exact Tracking.bind Tracking.closeSockets (fun _ => Tracking.raise _)
    · exact Tracking.modify (fun w => ⟨rfl, rfl⟩)
  · exact Tracking.modify (fun w => ⟨rfl, rfl⟩)

theorem Tracking.close : Tracking Session.close := by
  refine Tracking.bind Tracking.get (fun w => ?_)
  refine Tracking.bind (Tracking.sockSend _ _) (fun _ => ?_)
  exact Tracking.bind Tracking.closeSockets (fun _ => Tracking.modify (fun w => ⟨rfl, rfl⟩))

theorem Tracking.set (x y z : UInt8) (d : Option Obj) : Tracking (Session.setSingleAttributeSerializable x y z d) :=
  Tracking.bind (Tracking.rr _ _ _) (fun _ => Tracking.pure _)

theorem Tracking.create (o t : ConnectionInfo) : Tracking (Session.createConnection o t) := by
  refine Tracking.bind Tracking.get (fun w => ?_)
  refine Tracking.bind (Tracking.modify (fun w => ⟨rfl, rfl⟩)) (fun _ => ?_)
  refine Tracking.bind (Tracking.rr _ _ _) (fun r => ?_)
  refine Tracking.bind (Tracking.onLocal _ _) (fun r => ?_)
  split
  · exact Tracking.raise _
  · refine Tracking.bind (Tracking.modify (fun w => ⟨rfl, rfl⟩)) (fun _ => ?_)
    exact Tracking.bind Tracking.get (fun w => Tracking.pure _)

theorem Tracking.closeConnection (n : Nat) : Tracking (Session.closeConnection n) := by
  refine Tracking.bind Tracking.get (fun w => ?_)
  split
  · exact Tracking.undef _
  · refine Tracking.bind (Tracking.rr _ _ _) (fun r => ?_)
    refine Tracking.bind (Tracking.onLocal _ _) (fun r => ?_)
    refine Tracking.bind Tracking.get (fun w => ?_)
    split
    · exact Tracking.undef _
    · split
      · exact Tracking.modify (fun w => ⟨rfl, rfl⟩)
      · exact Tracking.raise _

theorem Tracking.getConnection (n : Nat) : Tracking (Session.getConnection n) := by
  refine Tracking.bind Tracking.get (fun w => ?_)
  split
  · exact Tracking.undef _
  · exact Tracking.pure _

theorem Tracking.forget {p : Prog World α} (h : Tracking p) : Tracking p.forget :=
  Tracking.bind h (fun _ => Tracking.pure _)

theorem Tracking.getAttribute {δ : Type} (c : Class δ) (init : δ) (x y z : UInt8) :
    Tracking (Op.run (.getAttribute δ c init x y z)) := by
  intro w
  have h := Tracking.rr 0x0E (Path.mk3 x y z) none w
  simp only [Op.run, Session.getSingleAttributeSerializable, Prog.bind_def, Prog.andThen, Session.onWorld, Prog.zoom]
  generalize Session.sendRRDataCommand 0x0E (Path.mk3 x y z) none w = r at h ⊢
  obtain ⟨(a | e | u), w'⟩ := r <;> exact h

theorem op_tracks (op : Op) : Tracking op.run := by
  cases op with
  | «open» h p i => exact Tracking.open h p i
  | close => exact Tracking.close
  | getAttribute δ c init x y z => exact Tracking.getAttribute c init x y z
  | setAttribute x y z d => exact Tracking.set x y z d
  | createConnection o t => exact (Tracking.create o t).forget
  | closeConnection n => exact Tracking.closeConnection n
  | getConnection n => exact (Tracking.getConnection n).forget
  | receiveIOPacket => exact (Tracking.bind (Tracking.sockReceive _) (fun _ => Tracking.onLocal _ _)).forget
  | sendIOPacket p => exact Tracking.bind (Tracking.sockSend _ _) (fun _ => Tracking.pure _)

theorem runOps_tracks (ops : List Op) (w : World) : Tracks w (runOps ops w).1 :=
  runOps_induct (P := fun _ => True) Tracks.refl (fun _ _ _ => Tracks.trans) (fun op w _ => op_tracks op w) ops
    (fun _ _ => trivial) w

end Eip
