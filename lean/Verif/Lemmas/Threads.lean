import Verif.Lemmas.Shared
import Verif.Model.Threads
/-
Calls cut into pieces: done in a row, the pieces are the call.
-/
namespace Eip
open Spec

namespace Task

variable {α β : Type}

theorem alone_piece (p : Prog World β) (f : β → Task α) : (piece p f).alone = (p >>= fun b => (f b).alone) := by
  funext w
  simp only [piece, alone, Prog.bind_def, Prog.andThen]
  rcases p w with ⟨(b | e | u), w'⟩ <;> rfl

theorem alone_last (p : Prog World α) : (last p).alone = p := rfl

theorem alone_ok (a : α) : (done (.ok a)).alone = pure a := rfl

theorem alone_throw (e : Exn) : (done (.throw e) : Task α).alone = Prog.raise e := rfl

end Task

theorem Prog.bind_pure {σ α : Type} (p : Prog σ α) : (p >>= fun a => pure a) = p := by
  funext s
  simp only [Prog.bind_def, Prog.andThen]
  rcases p s with ⟨(a | e | u), s'⟩ <;> rfl

/-- Parsing what a receive has put into the buffer. -/
theorem receive_then {α : Type} (s : Sock) (f : Bytes → Prog World α) :
    (sockReceive s >>= f) = ((do let bytes ← sockReceive s; pure bytes.length) >>= fun n =>
      Prog.get >>= fun w => f (w.s.recvBuffer.take n)) := by
  funext w
  rw [Prog.bind_assoc]
  have e := sockReceive_eq s w
  split at e
  · rw [Prog.bind_throw e, Prog.bind_throw e]
  · rw [Prog.bind_ok e, Prog.bind_ok e]
    simp only [Prog.pure_bind]
    simp only [Prog.bind_def, Prog.andThen, Prog.get, take_receiveInto]

theorem sendCommand_pieces (req : EncapPacket) : Session.sendCommand req = (do
    let _ ← sockSend .tcp req.obj
    let n ← (do let bytes ← sockReceive .tcp; pure bytes.length)
    Session.parseReply req n) := by
  rw [Session.sendCommand, receive_then]
  rfl

theorem rrGuard_bind {α β : Type} (p : Prog World α) (f : α → Prog World β) :
    Session.rrGuard (p >>= f) = (Session.rrGuard p >>= fun a => Session.rrGuard (f a)) := by
  funext w
  simp only [Session.rrGuard, Session.catchLengthLogic, Prog.tryCatch, Prog.bind_def, Prog.andThen]
  rcases p w with ⟨(a | e | u), w'⟩
  · rfl
  · simp only
    by_cases h : e.kind.isA .lengthError = true
    · simp only [h, if_true]; rfl
    · by_cases h' : e.kind.isA .logicError = true
      · simp only [h, h', if_true]; rfl
      · simp only [h, h']; rfl
  · rfl

theorem alone_exchange {κ α : Type} (prepare : Prog World (κ × EncapPacket)) (rest : κ → EncapPacket → Prog World α) :
    (Session.exchange prepare Session.rrGuard rest).alone = (do
      let x ← prepare
      let response ← Session.rrGuard (Session.sendCommand x.2)
      rest x.1 response) := by
  simp only [Session.exchange, Task.alone_piece, Task.alone_last, sendCommand_pieces, rrGuard_bind, Prog.bind_assoc]

theorem sendRRData_pieces (service : UInt8) (path : Path) (data : Option Obj) :
    Session.sendRRDataCommand service path data = (do
      let w ← Prog.get
      let response ← Session.rrGuard (Session.sendCommand (Session.rrRequest service path data w.s.sessionId))
      Session.rrRest response) := rfl

theorem alone_rrTask {κ α : Type} (service : UInt8) (path : Path) (before : Prog World (κ × Option Obj))
    (after : κ → RRDataResponse → Prog World α) :
    (Session.rrTask service path before after).alone = (do
      let x ← before
      let respData ← Session.sendRRDataCommand service path x.2
      after x.1 respData) := by
  rw [Session.rrTask, alone_exchange]
  simp only [Prog.bind_assoc, Prog.pure_bind, sendRRData_pieces]

theorem alone_closing {α : Type} (t : Task α) : (Session.closingTask t).alone = (Session.closeSockets >>= fun _ => t.alone) := by
  simp only [Session.closingTask, Task.alone_piece, Session.closeSockets, Prog.bind_assoc]

/-- The handlers of `open`. -/
def openGuard {α : Type} (p : Prog World α) : Prog World α :=
  Session.catchLengthLogic p
    (do Session.closeSockets; Prog.raise (runtimeError "Invalid response received registering session"))
    (do Session.closeSockets; Prog.raise (runtimeError "Error in registration response"))

theorem alone_handler {α : Type} (e : Exn) :
    (Session.openHandler e : Task α).alone =
      if e.kind.isA .lengthError then
        (do Session.closeSockets; Prog.raise (runtimeError "Invalid response received registering session"))
      else if e.kind.isA .logicError then
        (do Session.closeSockets; Prog.raise (runtimeError "Error in registration response"))
      else Prog.raise e := by
  rw [Session.openHandler]
  split
  · rw [alone_closing]; rfl
  · split
    · rw [alone_closing]; rfl
    · rfl

theorem openPiece_ok {α β : Type} {p : Prog World β} {w w' : World} {b : β} (h : p w = (.ok b, w')) (f : β → Task α) :
    (Session.openPiece p f).alone w = (f b).alone w' := by
  simp only [Session.openPiece, Task.alone, h]

theorem openPiece_throw {α β : Type} {p : Prog World β} {w w' : World} {e : Exn} (h : p w = (.throw e, w'))
    (f : β → Task α) : (Session.openPiece p f).alone w = (Session.openHandler e : Task α).alone w' := by
  simp only [Session.openPiece, Task.alone, h]

theorem openPiece_ub {α β : Type} {p : Prog World β} {w w' : World} {u : UB} (h : p w = (.ub u, w'))
    (f : β → Task α) : (Session.openPiece p f).alone w = (.ub u, w') := by
  simp only [Session.openPiece, Task.alone, h]

/-- Nothing that the registration data are parsed with throws. -/
theorem parseRegistration_calm (response : EncapPacket) (w : World) (e : Exn) (w' : World)
    (h : Session.parseRegistration response w = (.throw e, w')) : e.kind.isA .lengthError = false ∧ e.kind.isA .logicError = false := by
  simp only [Session.parseRegistration, Session.catchLengthLogic, Prog.tryCatch] at h
  generalize (do
    let d ← Session.onLocal RegisterSessionData.new (response.getPayloadAs RegisterSessionData.cls)
    pure (some d) : Prog World (Option RegisterSessionData)) w = q at h
  rcases q with ⟨(b | e' | u), w1⟩
  · cases h
  · simp only at h
    by_cases h1 : e'.kind.isA .lengthError = true
    · rw [if_pos h1] at h; cases h
    · by_cases h2 : e'.kind.isA .logicError = true
      · rw [if_neg h1, if_pos h2] at h; cases h
      · rw [if_neg h1, if_neg h2] at h
        cases h
        exact ⟨Bool.eq_false_iff.mpr h1, Bool.eq_false_iff.mpr h2⟩
  · cases h

/-- The end of `open`, after the registration reply has been received. -/
def openEnd (response : EncapPacket) : Prog World Unit := do
  let regData ← Session.parseRegistration response
  match regData with
  | some d =>
    if d.protocolVersion ≠ eipProtocolVersion then do
      Session.closeSockets
      Prog.raise (runtimeError "Received wrong Ethernet IP Protocol Version on registration")
    else
      Prog.modify (fun w => { w with s := { w.s with sessionId := response.header.sessionHandle } })
  | none =>
    Prog.modify (fun w => { w with s := { w.s with sessionId := response.header.sessionHandle } })

theorem open_end (h p i : String) : Session.open h p i = (do
    sockOpen .tcp h p
    sockOpen .io h i
    let response ← openGuard (Session.sendCommand
      (EncapPacket.withPayload Session.cmdRegisterSession 0 (some RegisterSessionData.new.obj)))
    openEnd response) := rfl

theorem openGuard_ok {α : Type} {p : Prog World α} {w w' : World} {a : α} (h : p w = (.ok a, w')) :
    openGuard p w = (.ok a, w') := by
  simp only [openGuard, Session.catchLengthLogic, Prog.tryCatch, h]

theorem openGuard_ub {α : Type} {p : Prog World α} {w w' : World} {u : UB} (h : p w = (.ub u, w')) :
    openGuard p w = (.ub u, w') := by
  simp only [openGuard, Session.catchLengthLogic, Prog.tryCatch, h]

theorem openGuard_throw {α β : Type} {p : Prog World α} {w w' : World} {e : Exn} (h : p w = (.throw e, w'))
    (f : α → Prog World β) : (openGuard p >>= f) w = (Session.openHandler e : Task β).alone w' := by
  rw [alone_handler]
  have e1 : openGuard p w = (if e.kind.isA .lengthError then
        (do Session.closeSockets; Prog.raise (runtimeError "Invalid response received registering session"))
      else if e.kind.isA .logicError then
        (do Session.closeSockets; Prog.raise (runtimeError "Error in registration response"))
      else Prog.raise e : Prog World α) w' := by
    simp only [openGuard, Session.catchLengthLogic, Prog.tryCatch, h]
  have e2 : (openGuard p >>= f) w = ((if e.kind.isA .lengthError then
        (do Session.closeSockets; Prog.raise (runtimeError "Invalid response received registering session"))
      else if e.kind.isA .logicError then
        (do Session.closeSockets; Prog.raise (runtimeError "Error in registration response"))
      else Prog.raise e : Prog World α) >>= f) w' := by
    rw [Prog.bind_def, Prog.bind_def, Prog.andThen, Prog.andThen, e1]
  rw [e2]
  by_cases h1 : e.kind.isA .lengthError = true
  · rw [if_pos h1, if_pos h1, Prog.bind_assoc]
    rfl
  · rw [if_neg h1, if_neg h1]
    by_cases h2 : e.kind.isA .logicError = true
    · rw [if_pos h2, if_pos h2, Prog.bind_assoc]
      rfl
    · rw [if_neg h2, if_neg h2]
      rfl

theorem alone_open (h p i : String) : (Session.openTask h p i).alone = Session.open h p i := by
  rw [Session.openTask, open_end, Task.alone_piece]
  congr 1; funext _
  rw [Task.alone_piece]
  congr 1; funext _
  simp only []
  generalize EncapPacket.withPayload Session.cmdRegisterSession 0 (some RegisterSessionData.new.obj) = req
  funext w
  rw [sendCommand_pieces]
  rcases h1 : sockSend .tcp req.obj w with ⟨(b | e | u), w1⟩
  · rw [openPiece_ok h1]
    rcases h2 : (do let bytes ← sockReceive .tcp; pure bytes.length : Prog World Nat) w1 with ⟨(n | e | u), w2⟩
    · rw [openPiece_ok h2]
      rcases h3 : Session.parseReply req n w2 with ⟨(r | e | u), w3⟩
      · rw [Prog.bind_ok (openGuard_ok ((Prog.bind_ok h1).trans ((Prog.bind_ok h2).trans h3)))]
        simp only [openEnd]
        rcases h4 : Session.parseRegistration r w3 with ⟨(d | e | u), w4⟩
        · rw [Prog.bind_ok h4]
          cases d with
          | none =>
            rw [openPiece_ok ((Prog.bind_ok h3).trans (Prog.bind_ok h4))]
            rfl
          | some d =>
            simp only []
            by_cases hv : d.protocolVersion = eipProtocolVersion
            · rw [if_neg (by simp [hv])]
              rw [openPiece_ok ((Prog.bind_ok h3).trans ((Prog.bind_ok h4).trans
                (congrFun (if_neg (by simp [hv])) w4)))]
              rfl
            · rw [if_pos hv]
              rw [openPiece_ok ((Prog.bind_ok h3).trans ((Prog.bind_ok h4).trans (congrFun (if_pos hv) w4)))]
              rw [alone_closing]
              rfl
        · rw [Prog.bind_throw h4, openPiece_throw ((Prog.bind_ok h3).trans (Prog.bind_throw h4))]
          have := parseRegistration_calm r w3 e w4 h4
          rw [alone_handler, this.1, this.2]
          rfl
        · rw [Prog.bind_ub h4, openPiece_ub ((Prog.bind_ok h3).trans (Prog.bind_ub h4))]
      · rw [openPiece_throw (Prog.bind_throw h3), openGuard_throw ((Prog.bind_ok h1).trans ((Prog.bind_ok h2).trans h3))]
      · rw [openPiece_ub (Prog.bind_ub h3),
          Prog.bind_ub (openGuard_ub ((Prog.bind_ok h1).trans ((Prog.bind_ok h2).trans h3)))]
    · rw [openPiece_throw h2, openGuard_throw ((Prog.bind_ok h1).trans (Prog.bind_throw h2))]
    · rw [openPiece_ub h2, Prog.bind_ub (openGuard_ub ((Prog.bind_ok h1).trans (Prog.bind_ub h2)))]
  · rw [openPiece_throw h1, openGuard_throw (Prog.bind_throw h1)]
  · rw [openPiece_ub h1, Prog.bind_ub (openGuard_ub (Prog.bind_ub h1))]

theorem alone_close : Session.closeTask.alone = Session.close := by
  simp only [Session.closeTask, Task.alone_piece, alone_closing, Task.alone_last]
  rfl

theorem getValue_eq {δ : Type} (c : Class δ) (init : δ) (x y z : UInt8) (w : World) :
    (do
      let r ← Session.sendRRDataCommand 0x0E (Path.mk3 x y z) none
      Session.onLocal init (r.getResponseDataAs c) : Prog World δ) w = Session.getValue c init x y z w := by
  have e : Session.getSingleAttributeSerializable c x y z = (do
    let respData ← Session.onWorld (Session.sendRRDataCommand 0x0E (Path.mk3 x y z) none)
    Session.onResult (respData.getResponseDataAs c)) := rfl
  unfold Session.getValue
  rw [e]
  generalize Session.sendRRDataCommand 0x0E (Path.mk3 x y z) none = q
  simp only [Session.onWorld, Session.onResult, Prog.bind_def, Prog.andThen, Prog.zoom]
  rcases q w with ⟨(r | e | u), w'⟩
  · simp only [Session.onLocal]
    generalize r.getResponseDataAs c init = q
    rcases q with ⟨(_ | _ | _), _⟩ <;> rfl
  · rfl
  · rfl

theorem alone_get {δ : Type} (c : Class δ) (init : δ) (x y z : UInt8) :
    (Session.getTask c init x y z).alone = Session.getValue c init x y z := by
  rw [Session.getTask, alone_rrTask, Prog.pure_bind]
  exact funext (getValue_eq c init x y z)

theorem alone_set (x y z : UInt8) (d : Option Obj) :
    (Session.setTask x y z d).alone = Session.setSingleAttributeSerializable x y z d := by
  simp only [Session.setTask, alone_rrTask, Prog.pure_bind, Session.setSingleAttributeSerializable]

theorem alone_create (o t : ConnectionInfo) : (Session.createTask o t).alone = Session.createConnection o t := by
  simp only [Session.createTask, alone_rrTask, Prog.bind_assoc, Prog.pure_bind, Session.createConnection]
  congr 1

theorem alone_closeConnection (n : Nat) : (Session.closeConnectionTask n).alone = Session.closeConnection n := by
  simp only [Session.closeConnectionTask, alone_rrTask, Prog.bind_assoc, Session.closeConnection]
  congr 1; funext w
  cases w.s.connections[n]? with
  | none => rfl
  | some c =>
    simp only [Prog.pure_bind]
    congr 1

theorem alone_receive : Session.receiveTask.alone = Session.receiveIOPacket := by
  rw [Session.receiveTask, Task.alone_piece, Session.receiveIOPacket]
  exact (receive_then .io (fun bytes => Session.onLocal ⟨[]⟩ (fun p =>
    match CPFPacket.deserialize (p, .buffer (BufferReader.new bytes)) with
    | (r, (p', _)) => (r, p')))).symm

theorem alone_task (op : Op) : op.task.alone = op.value := by
  cases op with
  | «open» h p i => exact alone_open h p i
  | close => exact alone_close
  | getAttribute δ c init x y z => exact alone_get c init x y z
  | setAttribute x y z d => exact alone_set x y z d
  | createConnection o t => exact alone_create o t
  | closeConnection n => exact alone_closeConnection n
  | getConnection n => exact Task.alone_last _
  | receiveIOPacket => exact alone_receive
  | sendIOPacket p => exact Task.alone_last _

end Eip
