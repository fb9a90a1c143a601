import Verif.Lemmas.Payload
import Verif.Spec.Session
/-
Exact behaviour of the session's building blocks as functions of the environment's answers.
-/
namespace Eip
open Spec

theorem serializeToVector_of {σ : Type} {o : Obj} {bs : Bytes} (h : Encodes o bs) (w : σ) :
    serializeToVector o.getLength o.serialize w = (.ok bs, w) := by
  have e := h.writes.fits (BufferWriter.new (List.replicate o.getLength 0)) (by
    simp [BufferWriter.new, h.length])
  rw [serializeToVector, e]
  simp [BufferWriter.memory, BufferWriter.new, h.length]

/-- The bytes an object is sent as. -/
def Serializes (o : Obj) (bs : Bytes) : Prop := ∀ w : World, serializeToVector o.getLength o.serialize w = (.ok bs, w)

theorem Serializes.of {o : Obj} {bs : Bytes} (h : Encodes o bs) : Serializes o bs := fun w => serializeToVector_of h w

/-- Every object can be sent or not, independently of the world. -/
theorem serialize_cases (o : Obj) : (∃ bs, Serializes o bs) ∨
    (∃ e, ∀ w : World, serializeToVector o.getLength o.serialize w = (.throw e, w)) ∨
    (∃ u, ∀ w : World, serializeToVector o.getLength o.serialize w = (.ub u, w)) := by
  unfold Serializes serializeToVector
  rcases o.serialize (.buffer (BufferWriter.new (List.replicate o.getLength 0))) with ⟨(x | e | u), wr⟩
  · cases wr with
    | buffer bw => exact Or.inl ⟨_, fun _ => rfl⟩
    | stream sw => exact Or.inl ⟨_, fun _ => rfl⟩
  · exact Or.inr (Or.inl ⟨e, fun _ => rfl⟩)
  · exact Or.inr (Or.inr ⟨u, fun _ => rfl⟩)

/-- The world after the call `ev`. -/
def World.after (w : World) (ev : Ev) : World := { w with clock := w.clock + 1, trace := w.trace ++ [ev] }

theorem sockCall_eq (ev : Answer → Ev) (w : World) :
    sockCall ev w = if (w.env w.clock).fails then (.throw systemError, w.after (ev (w.env w.clock)))
      else (.ok (w.env w.clock), w.after (ev (w.env w.clock))) := rfl

theorem sockOpen_eq (s : Sock) (host port : String) (w : World) :
    sockOpen s host port w =
      if (w.env w.clock).fails then (.throw systemError, w.after (.opened s host port false))
      else (.ok (), w.after (.opened s host port true)) := by
  simp only [sockOpen, Prog.bind_def, Prog.andThen, sockCall_eq]
  by_cases h : (w.env w.clock).fails <;> simp [h, Prog.pure_apply]

theorem sockClose_eq (s : Sock) (w : World) :
    sockClose s w =
      if (w.env w.clock).fails then (.throw systemError, w.after (.closed s false))
      else (.ok (), w.after (.closed s true)) := by
  simp only [sockClose, Prog.bind_def, Prog.andThen, sockCall_eq]
  by_cases h : (w.env w.clock).fails <;> simp [h, Prog.pure_apply]

theorem sockSend_eq {o : Obj} {bs : Bytes} (ho : Serializes o bs) (s : Sock) (w : World) :
    sockSend s o w =
      if (w.env w.clock).fails then (.throw systemError, w.after (.sent s bs false))
      else (.ok (min (w.env w.clock).accepted bs.length), w.after (.sent s bs true)) := by
  rw [sockSend, Prog.bind_ok (ho w)]
  simp only [sockSendBuffer, Prog.bind_def, Prog.andThen, sockCall_eq]
  by_cases h : (w.env w.clock).fails <;> simp [h, Prog.pure_apply]

/-- The receive buffer after `data` has been received into it. -/
def Session.receiveInto (s : Session) (data : Bytes) : Session :=
  { s with recvBuffer := data ++ s.recvBuffer.drop data.length }

theorem sockReceive_eq (s : Sock) (w : World) :
    sockReceive s w =
      if (w.env w.clock).fails then (.throw systemError, w.after (.received s (delivered w.env w.clock) false))
      else (.ok (delivered w.env w.clock),
        { w.after (.received s (delivered w.env w.clock) true) with
          s := w.s.receiveInto (delivered w.env w.clock) }) := by
  simp only [sockReceive, Prog.bind_def, Prog.andThen, sockCall_eq]
  by_cases h : (w.env w.clock).fails
  · simp [h, delivered, recvCapacity]
  · simp only [h, Prog.modify, Prog.get, Prog.pure_apply, World.after, Session.receiveInto, delivered, recvCapacity]
    simp

/-- The world after a successful exchange: one send, one receive. -/
def World.exchanged (w : World) (bs : Bytes) : World :=
  { s := w.s.receiveInto (delivered w.env (w.clock + 1))
    env := w.env
    clock := w.clock + 2
    trace := w.trace ++ [.sent .tcp bs true, .received .tcp (delivered w.env (w.clock + 1)) true] }

/-- The three ways an exchange can go. -/
theorem sendCommand_eq {req : EncapPacket} {bs : Bytes} (ho : Serializes req.obj bs) (w : World) :
    Session.sendCommand req w =
      if (w.env w.clock).fails then (.throw systemError, w.after (.sent .tcp bs false))
      else if (w.env (w.clock + 1)).fails then
        (.throw systemError, (w.after (.sent .tcp bs true)).after
          (.received .tcp (delivered w.env (w.clock + 1)) false))
      else
        match Session.parsePacket (delivered w.env (w.clock + 1)) (w.exchanged bs) with
        | (.ok p, w') =>
          match Session.checkPacket p req.header.command w' with
          | (.ok (), w'') => (.ok p, w'')
          | (.throw e, w'') => (.throw e, w'')
          | (.ub u, w'') => (.ub u, w'')
        | (.throw e, w') => (.throw e, w')
        | (.ub u, w') => (.ub u, w') := by
  rw [Session.sendCommand]
  by_cases h1 : (w.env w.clock).fails
  · have := sockSend_eq ho .tcp w
    rw [if_pos h1] at this
    rw [Prog.bind_throw this, if_pos h1]
  · have e1 := sockSend_eq ho .tcp w
    rw [if_neg h1] at e1
    rw [Prog.bind_ok e1, if_neg h1]
    have e2 := sockReceive_eq .tcp (w.after (.sent .tcp bs true))
    by_cases h2 : (w.env (w.clock + 1)).fails
    · have h2' : ((w.after (.sent .tcp bs true)).env (w.after (.sent .tcp bs true)).clock).fails = true := h2
      rw [if_pos h2'] at e2
      rw [Prog.bind_throw e2, if_pos h2]
      rfl
    · have h2' : ¬ ((w.after (.sent .tcp bs true)).env (w.after (.sent .tcp bs true)).clock).fails = true := h2
      rw [if_neg h2'] at e2
      rw [Prog.bind_ok e2, if_neg h2]
      have e3 : ({ (w.after (.sent .tcp bs true)).after (.received .tcp
          (delivered (w.after (.sent .tcp bs true)).env (w.after (.sent .tcp bs true)).clock) true) with
          s := (w.after (.sent .tcp bs true)).s.receiveInto
            (delivered (w.after (.sent .tcp bs true)).env (w.after (.sent .tcp bs true)).clock) } : World)
          = w.exchanged bs := by
        simp [World.after, World.exchanged]
      rw [e3]
      simp only [Prog.bind_def, Prog.andThen]
      have e4 : delivered (w.after (.sent .tcp bs true)).env (w.after (.sent .tcp bs true)).clock
          = delivered w.env (w.clock + 1) := rfl
      rw [e4]
      rcases Session.parsePacket (delivered w.env (w.clock + 1)) (w.exchanged bs) with ⟨(p | e | u), w'⟩
      · simp only
        rcases Session.checkPacket p req.header.command w' with ⟨(p | e | u), w''⟩ <;> rfl
      · rfl
      · rfl

theorem checkPacket_ok {p : EncapPacket} {cmd : UInt16} {w : World} (h1 : p.header.command = cmd)
    (h2 : Acceptable w.s.sessionId p.header.sessionHandle) : Session.checkPacket p cmd w = (.ok (), w) := by
  simp only [Session.checkPacket, Prog.bind_def, Prog.andThen, Prog.get]
  rw [if_neg (by simp [h1]), if_neg, if_neg]
  · rfl
  · rcases h2 with ⟨a, b⟩ | ⟨a, b⟩ <;> simp [a, b]
  · rcases h2 with ⟨a, b⟩ | ⟨a, b⟩ <;> simp [a, b]

theorem checkPacket_throw {p : EncapPacket} {cmd : UInt16} {w : World}
    (h : ¬ (p.header.command = cmd ∧ Acceptable w.s.sessionId p.header.sessionHandle)) :
    ∃ what, Session.checkPacket p cmd w = (.throw (logicError what), w) := by
  simp only [Session.checkPacket, Prog.bind_def, Prog.andThen, Prog.get]
  by_cases h1 : p.header.command = cmd
  · rw [if_neg (by simp [h1])]
    by_cases h2 : w.s.sessionId = 0 ∧ p.header.sessionHandle = 0
    · rw [if_pos h2]; exact ⟨_, rfl⟩
    · rw [if_neg h2, if_pos]
      · exact ⟨_, rfl⟩
      · by_cases h3 : w.s.sessionId = 0
        · exact absurd ⟨h1, Or.inl ⟨h3, fun h4 => h2 ⟨h3, h4⟩⟩⟩ h
        · exact ⟨h3, fun h4 => h ⟨h1, Or.inr ⟨h3, h4⟩⟩⟩
  · rw [if_pos h1]; exact ⟨_, rfl⟩

/-- A reply that is accepted by the exchange. -/
def Spec.Accepted (w : World) (bytes : Bytes) (cmd : UInt16) (h : EncapHeader) (payload : Bytes) : Prop :=
  h.command = cmd ∧ Acceptable w.s.sessionId h.sessionHandle ∧ payload.length = h.length.toNat ∧
    ∃ tail, bytes = Spec.header h ++ payload ++ tail

theorem sendCommand_cases {req : EncapPacket} {bs : Bytes} (ho : Serializes req.obj bs) (w : World) :
    ((w.env w.clock).fails = true ∧
      Session.sendCommand req w = (.throw systemError, w.after (.sent .tcp bs false))) ∨
    ((w.env w.clock).fails = false ∧ (w.env (w.clock + 1)).fails = true ∧
      Session.sendCommand req w = (.throw systemError, (w.after (.sent .tcp bs true)).after
          (.received .tcp (delivered w.env (w.clock + 1)) false))) ∨
    ((w.env w.clock).fails = false ∧ (w.env (w.clock + 1)).fails = false ∧
      ((∃ h payload, Accepted w (delivered w.env (w.clock + 1)) req.header.command h payload ∧
        Session.sendCommand req w = (.ok ⟨h, rawData payload⟩, w.exchanged bs)) ∨
      ((¬ ∃ h payload, Accepted w (delivered w.env (w.clock + 1)) req.header.command h payload) ∧
        ∃ e, (e.kind = .lengthError ∨ e.kind = .logicError) ∧
          Session.sendCommand req w = (.throw e, w.exchanged bs)))) := by
  have E := sendCommand_eq ho w
  by_cases h1 : (w.env w.clock).fails = true
  · left
    rw [if_pos h1] at E
    exact ⟨h1, E⟩
  · right
    rw [if_neg h1] at E
    by_cases h2 : (w.env (w.clock + 1)).fails = true
    · left
      rw [if_pos h2] at E
      exact ⟨by simpa using h1, h2, E⟩
    · right
      rw [if_neg h2] at E
      refine ⟨by simpa using h1, by simpa using h2, ?_⟩
      have hs : (w.exchanged bs).s.sessionId = w.s.sessionId := rfl
      rcases parsePacket_cases (delivered w.env (w.clock + 1)) (w.exchanged bs) with
        ⟨h, payload, tail, hl, e⟩ | ⟨what, e⟩
      · have e' := parsePacket_ok (w.exchanged bs) h tail hl
        rw [← e] at e'
        rw [e'] at E
        simp only at E
        by_cases hc : h.command = req.header.command ∧ Acceptable w.s.sessionId h.sessionHandle
        · left
          rw [checkPacket_ok (p := ⟨h, rawData payload⟩) (w := w.exchanged bs) hc.1 hc.2] at E
          exact ⟨h, payload, ⟨hc.1, hc.2, hl, tail, e⟩, E⟩
        · right
          obtain ⟨what, e2⟩ := checkPacket_throw (p := ⟨h, rawData payload⟩) (cmd := req.header.command)
            (w := w.exchanged bs) hc
          rw [e2] at E
          refine ⟨?_, logicError what, Or.inr rfl, E⟩
          rintro ⟨h', payload', g1, g2, g3, tail', e3⟩
          have e4 := parsePacket_ok (w.exchanged bs) h' tail' g3
          rw [← e3, e'] at e4
          simp only [Prod.mk.injEq, Res.ok.injEq, EncapPacket.mk.injEq, and_true] at e4
          exact hc ⟨e4.1 ▸ g1, e4.1 ▸ g2⟩
      · right
        rw [e] at E
        refine ⟨?_, lengthError what, Or.inl rfl, E⟩
        rintro ⟨h', payload', g1, g2, g3, tail', e3⟩
        have e4 := parsePacket_ok (w.exchanged bs) h' tail' g3
        rw [← e3, e] at e4
        simp at e4

end Eip
