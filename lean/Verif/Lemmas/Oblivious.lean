import Verif.Lemmas.Effects
/-
Independence of the old contents of the receive buffer.
-/
namespace Eip
open Spec

variable {α β : Type}

theorem Oblivious.pure (a : α) : Oblivious (Pure.pure a : Prog World α) := fun _ old => ⟨old, rfl⟩
theorem Oblivious.raise (e : Exn) : Oblivious (Prog.raise e : Prog World α) := fun _ old => ⟨old, rfl⟩
theorem Oblivious.undef (u : UB) : Oblivious (Prog.undef u : Prog World α) := fun _ old => ⟨old, rfl⟩

theorem Oblivious.bind {p : Prog World α} {f : α → Prog World β} (hp : Oblivious p) (hf : ∀ a, Oblivious (f a)) :
    Oblivious (p >>= f) := by
  intro w old
  obtain ⟨left, h⟩ := hp w old
  simp only [Prog.bind_def, Prog.andThen]
  rw [h]
  rcases hr : p w with ⟨(a | e | u), w'⟩
  · obtain ⟨left', h'⟩ := hf a w' left
    exact ⟨left', h'⟩
  · exact ⟨left, rfl⟩
  · exact ⟨left, rfl⟩

/-- Reading the world is harmless when the receive buffer is not used. -/
theorem Oblivious.get {f : World → Prog World β} (same : ∀ w old, f (withBuffer w old) = f w)
    (hf : ∀ w, Oblivious (f w)) : Oblivious ((Prog.get : Prog World World) >>= f) := by
  intro w old
  obtain ⟨left, h⟩ := hf w w old
  refine ⟨left, ?_⟩
  have e : ∀ w, ((Prog.get : Prog World World) >>= f) w = f w w := fun w => rfl
  rw [e, e, same, h]

theorem Oblivious.tryCatch {p : Prog World α} {f : Exn → Prog World α} (hp : Oblivious p) (hf : ∀ e, Oblivious (f e)) :
    Oblivious (Prog.tryCatch p f) := by
  intro w old
  obtain ⟨left, h⟩ := hp w old
  simp only [Prog.tryCatch]
  rw [h]
  rcases hr : p w with ⟨(a | e | u), w'⟩
  · exact ⟨left, rfl⟩
  · obtain ⟨left', h'⟩ := hf e w' left
    exact ⟨left', h'⟩
  · exact ⟨left, rfl⟩

theorem Oblivious.catchLL {p a b : Prog World α} (hp : Oblivious p) (ha : Oblivious a) (hb : Oblivious b) :
    Oblivious (Session.catchLengthLogic p a b) := by
  refine Oblivious.tryCatch hp (fun e => ?_)
  split
  · exact ha
  · split
    · exact hb
    · exact Oblivious.raise e

theorem Oblivious.sockCall (ev : Answer → Ev) : Oblivious (sockCall ev) := by
  intro w old
  refine ⟨old, ?_⟩
  rw [sockCall_eq, sockCall_eq]
  by_cases h : (w.env w.clock).fails = true
  · rw [if_pos h, if_pos (show ((withBuffer w old).env (withBuffer w old).clock).fails = true from h)]
    rfl
  · rw [if_neg h, if_neg (show ¬ ((withBuffer w old).env (withBuffer w old).clock).fails = true from h)]
    rfl

theorem Oblivious.sockReceive (s : Sock) : Oblivious (sockReceive s) := by
  intro w old
  rw [sockReceive_eq, sockReceive_eq]
  by_cases h : (w.env w.clock).fails = true
  · rw [if_pos h, if_pos (show ((withBuffer w old).env (withBuffer w old).clock).fails = true from h)]
    exact ⟨old, rfl⟩
  · rw [if_neg h, if_neg (show ¬ ((withBuffer w old).env (withBuffer w old).clock).fails = true from h)]
    exact ⟨_, rfl⟩

theorem Oblivious.local {γ : Type} {δ : Type} (init : δ) (p : Prog δ Unit) (f : Res δ → Res γ)
    (q : Prog World γ) (h : ∀ w, q w = (f ((Session.onLocal (σ := World) init p w).1), w)) : Oblivious q := by
  intro w old
  refine ⟨old, ?_⟩
  rw [h, h]
  have : (Session.onLocal (σ := World) init p (withBuffer w old)).1 = (Session.onLocal (σ := World) init p w).1 := by
    simp only [Session.onLocal]
    rcases p init with ⟨(_ | _ | _), _⟩ <;> rfl
  rw [this]

/-- Programs that do not touch the world at all. -/
theorem Oblivious.const {p : Prog World α} (r : Res α) (h : ∀ w, p w = (r, w)) : Oblivious p := by
  intro w old
  exact ⟨old, by rw [h, h]⟩

theorem Oblivious.onLocal {δ : Type} (init : δ) (p : Prog δ Unit) : Oblivious (Session.onLocal (σ := World) init p) := by
  rcases h : p init with ⟨(_ | e | u), d⟩
  · exact Oblivious.const (.ok d) (fun w => by simp [Session.onLocal, h])
  · exact Oblivious.const (.throw e) (fun w => by simp [Session.onLocal, h])
  · exact Oblivious.const (.ub u) (fun w => by simp [Session.onLocal, h])

theorem Oblivious.parsePacket (bytes : Bytes) : Oblivious (Session.parsePacket (σ := World) bytes) := by
  rcases h : EncapPacket.deserialize (EncapPacket.new, .buffer (BufferReader.new bytes)) with ⟨(_ | e | u), d, r⟩
  · exact Oblivious.const (.ok d) (fun w => by simp [Session.parsePacket, h])
  · exact Oblivious.const (.throw e) (fun w => by simp [Session.parsePacket, h])
  · exact Oblivious.const (.ub u) (fun w => by simp [Session.parsePacket, h])

theorem Oblivious.toVector (n : Nat) (p : Prog Writer Unit) : Oblivious (serializeToVector (σ := World) n p) := by
  intro w old
  refine ⟨old, ?_⟩
  simp only [serializeToVector]
  rcases p (.buffer (BufferWriter.new (List.replicate n 0))) with ⟨(_ | e | u), (bw | sw)⟩ <;> rfl

theorem Oblivious.sockSend (s : Sock) (o : Obj) : Oblivious (sockSend s o) := by
  refine Oblivious.bind (Oblivious.toVector _ _) (fun b => ?_)
  exact Oblivious.bind (Oblivious.sockCall _) (fun a => Oblivious.pure _)

theorem Oblivious.check (p : EncapPacket) (c : UInt16) : Oblivious (Session.checkPacket p c) := by
  refine Oblivious.get (fun w old => rfl) (fun w => ?_)
  split
  · exact Oblivious.raise _
  · split
    · exact Oblivious.raise _
    · split
      · exact Oblivious.raise _
      · exact Oblivious.pure _

theorem Oblivious.sendCommand (req : EncapPacket) : Oblivious (Session.sendCommand req) := by
  refine Oblivious.bind (Oblivious.sockSend _ _) (fun _ => ?_)
  refine Oblivious.bind (Oblivious.sockReceive _) (fun bytes => ?_)
  refine Oblivious.bind (Oblivious.parsePacket _) (fun p => ?_)
  exact Oblivious.bind (Oblivious.check _ _) (fun _ => Oblivious.pure _)

theorem Oblivious.sockOpen (s : Sock) (h p : String) : Oblivious (sockOpen s h p) :=
  Oblivious.bind (Oblivious.sockCall _) (fun _ => Oblivious.pure _)

theorem Oblivious.sockClose (s : Sock) : Oblivious (sockClose s) :=
  Oblivious.bind (Oblivious.sockCall _) (fun _ => Oblivious.pure _)

theorem Oblivious.closeSockets : Oblivious Session.closeSockets :=
  Oblivious.bind (Oblivious.sockClose _) (fun _ => Oblivious.sockClose _)

theorem Oblivious.rr (service : UInt8) (path : Path) (data : Option Obj) :
    Oblivious (Session.sendRRDataCommand service path data) := by
  refine Oblivious.get (fun w old => rfl) (fun w => ?_)
  refine Oblivious.bind (Oblivious.catchLL (Oblivious.sendCommand _) (Oblivious.raise _) (Oblivious.raise _)) (fun r => ?_)
  refine Oblivious.bind (Oblivious.catchLL (Oblivious.onLocal _ _) (Oblivious.raise _) (Oblivious.raise _)) (fun d => ?_)
  split
  · exact Oblivious.raise _
  · exact Oblivious.pure _

/-- An update of the session that neither reads nor writes the receive buffer. -/
theorem Oblivious.modify {f : World → World}
    (h : ∀ w old, ∃ left, f (withBuffer w old) = withBuffer (f w) left) : Oblivious (Prog.modify f) := by
  intro w old
  obtain ⟨left, e⟩ := h w old
  refine ⟨left, ?_⟩
  show (Res.ok (), f (withBuffer w old)) = _
  rw [e]; rfl

theorem Oblivious.open (h p i : String) : Oblivious (Session.open h p i) := by
  refine Oblivious.bind (Oblivious.sockOpen _ _ _) (fun _ => ?_)
  refine Oblivious.bind (Oblivious.sockOpen _ _ _) (fun _ => ?_)
  refine Oblivious.bind (Oblivious.catchLL (Oblivious.sendCommand _)
    (Oblivious.bind Oblivious.closeSockets (fun _ => Oblivious.raise _))
    (Oblivious.bind Oblivious.closeSockets (fun _ => Oblivious.raise _))) (fun r => ?_)
  refine Oblivious.bind (Oblivious.catchLL (Oblivious.bind (Oblivious.onLocal _ _) (fun _ => Oblivious.pure _))
    (Oblivious.pure _) (Oblivious.pure _)) (fun d => ?_)
  split
  · split
    · exact Oblivious.bind Oblivious.closeSockets (fun _ => Oblivious.raise _)
    · exact Oblivious.modify (fun w old => ⟨old, rfl⟩)
  · exact Oblivious.modify (fun w old => ⟨old, rfl⟩)

theorem Oblivious.close : Oblivious Session.close := by
  refine Oblivious.get (fun w old => rfl) (fun w => ?_)
  refine Oblivious.bind (Oblivious.sockSend _ _) (fun _ => ?_)
  refine Oblivious.bind Oblivious.closeSockets (fun _ => ?_)
  exact Oblivious.modify (fun w old => ⟨old, rfl⟩)

theorem Oblivious.set (x y z : UInt8) (d : Option Obj) : Oblivious (Session.setSingleAttributeSerializable x y z d) :=
  Oblivious.bind (Oblivious.rr _ _ _) (fun _ => Oblivious.pure _)

theorem Oblivious.create (o t : ConnectionInfo) : Oblivious (Session.createConnection o t) := by
  refine Oblivious.get (fun w old => rfl) (fun w => ?_)
  refine Oblivious.bind (Oblivious.modify (fun w old => ⟨old, rfl⟩)) (fun _ => ?_)
  refine Oblivious.bind (Oblivious.rr _ _ _) (fun r => ?_)
  refine Oblivious.bind (Oblivious.onLocal _ _) (fun r => ?_)
  split
  · exact Oblivious.raise _
  · refine Oblivious.bind (Oblivious.modify (fun w old => ⟨old, rfl⟩)) (fun _ => ?_)
    exact Oblivious.get (fun w old => rfl) (fun w => Oblivious.pure _)

theorem Oblivious.closeConnection (n : Nat) : Oblivious (Session.closeConnection n) := by
  refine Oblivious.get (fun w old => rfl) (fun w => ?_)
  split
  · exact Oblivious.undef _
  · refine Oblivious.bind (Oblivious.rr _ _ _) (fun r => ?_)
    refine Oblivious.bind (Oblivious.onLocal _ _) (fun r => ?_)
    refine Oblivious.get (fun w old => rfl) (fun w => ?_)
    split
    · exact Oblivious.undef _
    · split
      · exact Oblivious.modify (fun w old => ⟨old, rfl⟩)
      · exact Oblivious.raise _

theorem Oblivious.getConnection (n : Nat) : Oblivious (Session.getConnection n) := by
  refine Oblivious.get (fun w old => rfl) (fun w => ?_)
  split
  · exact Oblivious.undef _
  · exact Oblivious.pure _

theorem Oblivious.receiveIO : Oblivious Session.receiveIOPacket :=
  Oblivious.bind (Oblivious.sockReceive _) (fun _ => Oblivious.onLocal _ _)

theorem Oblivious.sendIO (p : CPFPacket) : Oblivious (Session.sendIOPacket p) :=
  Oblivious.bind (Oblivious.sockSend _ _) (fun _ => Oblivious.pure _)

end Eip
