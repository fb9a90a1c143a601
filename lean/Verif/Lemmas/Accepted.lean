import Verif.Lemmas.Effects
import Verif.Spec.Transport
/-
Independence of the number of bytes a send accepts.
-/
namespace Eip
open Spec

variable {α β : Type}

theorem IgnoresAccepted.pure (a : α) : IgnoresAccepted (Pure.pure a : Prog World α) := fun _ _ => rfl
theorem IgnoresAccepted.raise (e : Exn) : IgnoresAccepted (Prog.raise e : Prog World α) := fun _ _ => rfl
theorem IgnoresAccepted.undef (u : UB) : IgnoresAccepted (Prog.undef u : Prog World α) := fun _ _ => rfl

theorem IgnoresAccepted.bind {p : Prog World α} {f : α → Prog World β} (hp : IgnoresAccepted p)
    (hf : ∀ a, IgnoresAccepted (f a)) : IgnoresAccepted (p >>= f) := by
  intro w g
  simp only [Prog.bind_def, Prog.andThen]
  rw [hp w g]
  rcases hr : p w with ⟨(a | e | u), w'⟩
  · exact hf a w' g
  · rfl
  · rfl

/-- Reading the world is harmless when the environment is not used. -/
theorem IgnoresAccepted.get {f : World → Prog World β} (same : ∀ w g, f (withAccepted w g) = f w)
    (hf : ∀ w, IgnoresAccepted (f w)) : IgnoresAccepted ((Prog.get : Prog World World) >>= f) := by
  intro w g
  have e : ∀ w, ((Prog.get : Prog World World) >>= f) w = f w w := fun w => rfl
  rw [e, e, same, hf w w g]

theorem IgnoresAccepted.tryCatch {p : Prog World α} {f : Exn → Prog World α} (hp : IgnoresAccepted p)
    (hf : ∀ e, IgnoresAccepted (f e)) : IgnoresAccepted (Prog.tryCatch p f) := by
  intro w g
  simp only [Prog.tryCatch]
  rw [hp w g]
  rcases hr : p w with ⟨(a | e | u), w'⟩
  · rfl
  · exact hf e w' g
  · rfl

theorem IgnoresAccepted.catchLL {p a b : Prog World α} (hp : IgnoresAccepted p) (ha : IgnoresAccepted a) (hb : IgnoresAccepted b) :
    IgnoresAccepted (Session.catchLengthLogic p a b) := by
  refine IgnoresAccepted.tryCatch hp (fun e => ?_)
  split
  · exact ha
  · split
    · exact hb
    · exact IgnoresAccepted.raise e

/-- A socket call followed by something that does not look at the number of bytes accepted. -/
theorem IgnoresAccepted.sockCall {ev : Answer → Ev} {f : Answer → Prog World β}
    (hev : ∀ a n, ev { a with accepted := n } = ev a) (same : ∀ a n, f { a with accepted := n } = f a)
    (hf : ∀ a, IgnoresAccepted (f a)) : IgnoresAccepted (sockCall ev >>= f) := by
  intro w g
  simp only [Prog.bind_def, Prog.andThen]
  rw [sockCall_eq, sockCall_eq]
  by_cases h : (w.env w.clock).fails = true
  · rw [if_pos h, if_pos (show ((withAccepted w g).env (withAccepted w g).clock).fails = true from h)]
    have : ev ((withAccepted w g).env (withAccepted w g).clock) = ev (w.env w.clock) := hev _ _
    rw [this]
    rfl
  · rw [if_neg h, if_neg (show ¬ ((withAccepted w g).env (withAccepted w g).clock).fails = true from h)]
    have : ev ((withAccepted w g).env (withAccepted w g).clock) = ev (w.env w.clock) := hev _ _
    rw [this]
    have : f ((withAccepted w g).env (withAccepted w g).clock) = f (w.env w.clock) := same _ _
    simp only [this]
    exact hf (w.env w.clock) (w.after (ev (w.env w.clock))) g

theorem IgnoresAccepted.sockReceive (s : Sock) : IgnoresAccepted (sockReceive s) := by
  intro w g
  rw [sockReceive_eq, sockReceive_eq]
  by_cases h : (w.env w.clock).fails = true
  · rw [if_pos h, if_pos (show ((withAccepted w g).env (withAccepted w g).clock).fails = true from h)]
    rfl
  · rw [if_neg h, if_neg (show ¬ ((withAccepted w g).env (withAccepted w g).clock).fails = true from h)]
    rfl

/-- Programs that do not touch the world at all. -/
theorem IgnoresAccepted.const {p : Prog World α} (r : Res α) (h : ∀ w, p w = (r, w)) : IgnoresAccepted p := by
  intro w g
  rw [h, h]

theorem IgnoresAccepted.onLocal {δ : Type} (init : δ) (p : Prog δ Unit) : IgnoresAccepted (Session.onLocal (σ := World) init p) := by
  rcases h : p init with ⟨(_ | e | u), d⟩
  · exact IgnoresAccepted.const (.ok d) (fun w => by simp [Session.onLocal, h])
  · exact IgnoresAccepted.const (.throw e) (fun w => by simp [Session.onLocal, h])
  · exact IgnoresAccepted.const (.ub u) (fun w => by simp [Session.onLocal, h])

theorem IgnoresAccepted.parsePacket (bytes : Bytes) : IgnoresAccepted (Session.parsePacket (σ := World) bytes) := by
  rcases h : EncapPacket.deserialize (EncapPacket.new, .buffer (BufferReader.new bytes)) with ⟨(_ | e | u), d, r⟩
  · exact IgnoresAccepted.const (.ok d) (fun w => by simp [Session.parsePacket, h])
  · exact IgnoresAccepted.const (.throw e) (fun w => by simp [Session.parsePacket, h])
  · exact IgnoresAccepted.const (.ub u) (fun w => by simp [Session.parsePacket, h])

theorem IgnoresAccepted.toVector (n : Nat) (p : Prog Writer Unit) : IgnoresAccepted (serializeToVector (σ := World) n p) := by
  intro w g
  simp only [serializeToVector]
  rcases p (.buffer (BufferWriter.new (List.replicate n 0))) with ⟨(_ | e | u), (bw | sw)⟩ <;> rfl

/-- A send whose result is dropped. -/
theorem IgnoresAccepted.sockSend (s : Sock) (o : Obj) {q : Prog World β} (hq : IgnoresAccepted q) :
    IgnoresAccepted (sockSend s o >>= fun _ => q) := by
  have e : (Eip.sockSend s o >>= fun _ => q) =
      (serializeToVector o.getLength o.serialize >>= fun buf =>
        Eip.sockCall (fun a => .sent s buf (!a.fails)) >>= fun _ => q) := by
    funext w
    simp only [Eip.sockSend, sockSendBuffer, Prog.bind_def, Prog.andThen]
    rcases serializeToVector o.getLength o.serialize w with ⟨(b | _ | _), w'⟩
    · simp only
      rcases Eip.sockCall (fun a => .sent s b (!a.fails)) w' with ⟨(_ | _ | _), _⟩ <;> rfl
    · rfl
    · rfl
  rw [e]
  refine IgnoresAccepted.bind (IgnoresAccepted.toVector _ _) (fun b => ?_)
  exact IgnoresAccepted.sockCall (fun _ _ => rfl) (fun _ _ => rfl) (fun _ => hq)

theorem IgnoresAccepted.check (p : EncapPacket) (c : UInt16) : IgnoresAccepted (Session.checkPacket p c) := by
  refine IgnoresAccepted.get (fun _ _ => rfl) (fun w => ?_)
  split
  · exact IgnoresAccepted.raise _
  · split
    · exact IgnoresAccepted.raise _
    · split
      · exact IgnoresAccepted.raise _
      · exact IgnoresAccepted.pure _

theorem IgnoresAccepted.sendCommand (req : EncapPacket) : IgnoresAccepted (Session.sendCommand req) := by
  refine IgnoresAccepted.sockSend _ _ ?_
  refine IgnoresAccepted.bind (IgnoresAccepted.sockReceive _) (fun bytes => ?_)
  refine IgnoresAccepted.bind (IgnoresAccepted.parsePacket _) (fun p => ?_)
  exact IgnoresAccepted.bind (IgnoresAccepted.check _ _) (fun _ => IgnoresAccepted.pure _)

theorem IgnoresAccepted.sockOpen (s : Sock) (h p : String) : IgnoresAccepted (sockOpen s h p) :=
  IgnoresAccepted.sockCall (fun _ _ => rfl) (fun _ _ => rfl) (fun _ => IgnoresAccepted.pure _)

theorem IgnoresAccepted.sockClose (s : Sock) : IgnoresAccepted (sockClose s) :=
  IgnoresAccepted.sockCall (fun _ _ => rfl) (fun _ _ => rfl) (fun _ => IgnoresAccepted.pure _)

theorem IgnoresAccepted.closeSockets : IgnoresAccepted Session.closeSockets :=
  IgnoresAccepted.bind (IgnoresAccepted.sockClose _) (fun _ => IgnoresAccepted.sockClose _)

theorem IgnoresAccepted.rr (service : UInt8) (path : Path) (data : Option Obj) :
    IgnoresAccepted (Session.sendRRDataCommand service path data) := by
  refine IgnoresAccepted.get (fun _ _ => rfl) (fun w => ?_)
  refine IgnoresAccepted.bind (IgnoresAccepted.catchLL (IgnoresAccepted.sendCommand _) (IgnoresAccepted.raise _) (IgnoresAccepted.raise _)) (fun r => ?_)
  refine IgnoresAccepted.bind (IgnoresAccepted.catchLL (IgnoresAccepted.onLocal _ _) (IgnoresAccepted.raise _) (IgnoresAccepted.raise _)) (fun d => ?_)
  split
  · exact IgnoresAccepted.raise _
  · exact IgnoresAccepted.pure _

/-- An update of the session. -/
theorem IgnoresAccepted.modify {f : World → World} (h : ∀ w g, f (withAccepted w g) = withAccepted (f w) g) :
    IgnoresAccepted (Prog.modify f) := by
  intro w g
  show (Res.ok (), f (withAccepted w g)) = _
  rw [h]; rfl

theorem IgnoresAccepted.open (h p i : String) : IgnoresAccepted (Session.open h p i) := by
  refine IgnoresAccepted.bind (IgnoresAccepted.sockOpen _ _ _) (fun _ => ?_)
  refine IgnoresAccepted.bind (IgnoresAccepted.sockOpen _ _ _) (fun _ => ?_)
  refine IgnoresAccepted.bind (IgnoresAccepted.catchLL (IgnoresAccepted.sendCommand _)
    (IgnoresAccepted.bind IgnoresAccepted.closeSockets (fun _ => IgnoresAccepted.raise _))
    (IgnoresAccepted.bind IgnoresAccepted.closeSockets (fun _ => IgnoresAccepted.raise _))) (fun r => ?_)
  refine IgnoresAccepted.bind (IgnoresAccepted.catchLL (IgnoresAccepted.bind (IgnoresAccepted.onLocal _ _) (fun _ => IgnoresAccepted.pure _))
    (IgnoresAccepted.pure _) (IgnoresAccepted.pure _)) (fun d => ?_)
  split
  · split
    · exact IgnoresAccepted.bind IgnoresAccepted.closeSockets (fun _ => IgnoresAccepted.raise _)
    · exact IgnoresAccepted.modify (fun _ _ => rfl)
  · exact IgnoresAccepted.modify (fun _ _ => rfl)

theorem IgnoresAccepted.close : IgnoresAccepted Session.close := by
  refine IgnoresAccepted.get (fun _ _ => rfl) (fun w => ?_)
  refine IgnoresAccepted.sockSend _ _ ?_
  refine IgnoresAccepted.bind IgnoresAccepted.closeSockets (fun _ => ?_)
  exact IgnoresAccepted.modify (fun _ _ => rfl)

theorem IgnoresAccepted.set (x y z : UInt8) (d : Option Obj) : IgnoresAccepted (Session.setSingleAttributeSerializable x y z d) :=
  IgnoresAccepted.bind (IgnoresAccepted.rr _ _ _) (fun _ => IgnoresAccepted.pure _)

theorem IgnoresAccepted.create (o t : ConnectionInfo) : IgnoresAccepted (Session.createConnection o t) := by
  refine IgnoresAccepted.get (fun _ _ => rfl) (fun w => ?_)
  refine IgnoresAccepted.bind (IgnoresAccepted.modify (fun _ _ => rfl)) (fun _ => ?_)
  refine IgnoresAccepted.bind (IgnoresAccepted.rr _ _ _) (fun r => ?_)
  refine IgnoresAccepted.bind (IgnoresAccepted.onLocal _ _) (fun r => ?_)
  split
  · exact IgnoresAccepted.raise _
  · refine IgnoresAccepted.bind (IgnoresAccepted.modify (fun _ _ => rfl)) (fun _ => ?_)
    exact IgnoresAccepted.get (fun _ _ => rfl) (fun w => IgnoresAccepted.pure _)

theorem IgnoresAccepted.closeConnection (n : Nat) : IgnoresAccepted (Session.closeConnection n) := by
  refine IgnoresAccepted.get (fun _ _ => rfl) (fun w => ?_)
  split
  · exact IgnoresAccepted.undef _
  · refine IgnoresAccepted.bind (IgnoresAccepted.rr _ _ _) (fun r => ?_)
    refine IgnoresAccepted.bind (IgnoresAccepted.onLocal _ _) (fun r => ?_)
    refine IgnoresAccepted.get (fun _ _ => rfl) (fun w => ?_)
    split
    · exact IgnoresAccepted.undef _
    · split
      · exact IgnoresAccepted.modify (fun _ _ => rfl)
      · exact IgnoresAccepted.raise _

theorem IgnoresAccepted.getConnection (n : Nat) : IgnoresAccepted (Session.getConnection n) := by
  refine IgnoresAccepted.get (fun _ _ => rfl) (fun w => ?_)
  split
  · exact IgnoresAccepted.undef _
  · exact IgnoresAccepted.pure _

theorem IgnoresAccepted.receiveIO : IgnoresAccepted Session.receiveIOPacket :=
  IgnoresAccepted.bind (IgnoresAccepted.sockReceive _) (fun _ => IgnoresAccepted.onLocal _ _)

theorem IgnoresAccepted.sendIO (p : CPFPacket) : IgnoresAccepted (Session.sendIOPacket p) :=
  IgnoresAccepted.sockSend _ _ (IgnoresAccepted.pure _)

end Eip
