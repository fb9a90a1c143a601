import Verif.Model.Shared
/-
Calls made by several threads on one session: the public functions of session.h and src/session.cpp cut at their socket
calls. Nothing in these files takes a lock, so between the pieces anything else may happen.
-/
namespace Eip

/-- A call that is under way, cut into pieces: over with a result, or about to do `p` and then to go on depending on how
`p` ended. Simplification: a piece (a socket call, or the code between two socket calls) is not interrupted. -/
inductive Task (α : Type) : Type 1
  | done (r : Res α)
  | next (β : Type) (p : Prog World β) (k : Res β → Task α)

namespace Task

variable {α β γ : Type}

/-- The pieces done in a row. -/
def alone : Task α → Prog World α
  | .done r => fun w => (r, w)
  | .next _ p k => fun w => (k (p w).1).alone (p w).2

/-- A piece, and what comes after it unless it throws. -/
def piece (p : Prog World β) (f : β → Task α) : Task α :=
  .next β p (fun
    | .ok b => f b
    | .throw e => .done (.throw e)
    | .ub u => .done (.ub u))

/-- The last piece of a call. -/
def last (p : Prog World α) : Task α := .next α p .done

end Task

namespace Session

/-- The parts of `sendCommand` (src/session.cpp:166-186) and of its callers: `prepare` makes the request, `send` (line 169),
`receive` (line 172), and the rest, from the parsing of the first `n` bytes of `recv_buffer_` (line 175) to the end of
the calling function. `guard` is the exception handling of the caller around `sendCommand`. -/
def exchange {κ α : Type} (prepare : Prog World (κ × EncapPacket)) (guard : {β : Type} → Prog World β → Prog World β)
    (rest : κ → EncapPacket → Prog World α) : Task α :=
  .piece prepare fun (x, req) =>
  .piece (guard (sockSend .tcp req.obj)) fun _ =>
  .piece (guard (do let bytes ← sockReceive .tcp; pure bytes.length)) fun n =>
  .last (do let response ← guard (parseReply req n); rest x response)

/-- The handlers around `sendCommand` in `sendRRDataCommand` (src/session.cpp:250-263). -/
def rrGuard {β : Type} (p : Prog World β) : Prog World β :=
  catchLengthLogic p
    (Prog.raise (runtimeError "Packet response to RR Data Command too short"))
    (Prog.raise (runtimeError "Invalid packet response to RR Data Command"))

/-- The rest of `sendRRDataCommand` after `sendCommand` (src/session.cpp:264-294). -/
def rrRest (response : EncapPacket) : Prog World RRDataResponse := do
  let respData ← catchLengthLogic (onLocal RRDataResponse.new (response.getPayloadAs RRDataResponse.cls))
    (Prog.raise (runtimeError "Response data to RR Command too short"))
    (Prog.raise (runtimeError "Invalid data in response to RR command"))
  if respData.getGeneralStatus ≠ 0 then Prog.raise (runtimeError "RR Data Command Failed")
  else pure respData

/-- The request of `sendRRDataCommand` (src/session.cpp:243-247) in a session with this id. -/
def rrRequest (service : UInt8) (path : Path) (data : Option Obj) (id : UInt32) : EncapPacket :=
  EncapPacket.withPayload cmdSendRRData id (some (RRDataRequest.new service path data).obj)

/-- `sendRRDataCommand` (src/session.cpp:240-294) with the code of its caller before it, which supplies the data of the
request, and after it. -/
def rrTask {κ α : Type} (service : UInt8) (path : Path) (before : Prog World (κ × Option Obj))
    (after : κ → RRDataResponse → Prog World α) : Task α :=
  exchange
    (do
      let (x, data) ← before
      let w ← Prog.get
      pure (x, rrRequest service path data w.s.sessionId))
    rrGuard
    (fun x response => do
      let respData ← rrRest response
      after x respData)

/-- `getSingleAttributeSerializable` (src/session.cpp:223-231), in pieces; see `getValue`. -/
def getTask {δ : Type} (c : Class δ) (init : δ) (classId instanceId attributeId : UInt8) : Task δ :=
  rrTask 0x0E (Path.mk3 classId instanceId attributeId) (pure ((), none))
    (fun _ respData => onLocal init (respData.getResponseDataAs c))

/-- `setSingleAttributeSerializable` (src/session.cpp:233-238). -/
def setTask (classId instanceId attributeId : UInt8) (data : Option Obj) : Task Unit :=
  rrTask 0x10 (Path.mk3 classId instanceId attributeId) (pure ((), data)) (fun _ _ => pure ())

/-- `createConnection` (src/session.cpp:296-318). -/
def createTask (oToT tToO : ConnectionInfo) : Task Int :=
  rrTask 0x5B (Path.mk2 0x06 1)
    (do
      let w ← Prog.get
      let conn := prepareConnection w.s oToT tToO
      Prog.modify (fun w => { w with s := { w.s with
        nextConnectionSn := w.s.nextConnectionSn + 1
        nextConnectionId := w.s.nextConnectionId + 1 + 1 } })
      pure (conn, some conn.createForwardOpenRequest.obj))
    (fun conn respData => do
      let result ← onLocal freshForwardOpenSuccess (respData.getResponseDataAs ForwardOpenSuccess.cls)
      match conn.verifyForwardOpenResult result with
      | (false, _) => Prog.raise (logicError "Forward Open Response Invalid")
      | (true, conn') => do
        Prog.modify (fun w => { w with s := { w.s with connections := w.s.connections ++ [conn'] } })
        let w ← Prog.get
        pure (sizeToInt (sizeSub w.s.connections.length 1)))

/-- `closeConnection` (src/session.cpp:320-333). -/
def closeConnectionTask (n : Nat) : Task Unit :=
  rrTask 0x4E (Path.mk2 0x06 1)
    (do
      let w ← Prog.get
      match w.s.connections[n]? with
      | none => Prog.undef .indexOutOfRange
      | some c => pure ((), some c.createForwardCloseRequest.obj))
    (fun _ respData => do
      let result ← onLocal freshForwardCloseSuccess (respData.getResponseDataAs ForwardCloseSuccess.cls)
      let w ← Prog.get
      match w.s.connections[n]? with
      | none => Prog.undef .indexOutOfRange
      | some c =>
        if c.verifyForwardCloseResult result then
          Prog.modify (fun w => { w with s := { w.s with connections := w.s.connections.eraseIdx n } })
        else Prog.raise (logicError "Forward Close Response Invalid"))

/-- `receiveIOPacket` (src/session.cpp:335-351): the first `n` bytes of `recv_buffer_` are parsed after the socket call. -/
def receiveTask : Task CPFPacket :=
  .piece (do let bytes ← sockReceive .io; pure bytes.length) fun n =>
  .last (do
    let w ← Prog.get
    onLocal ⟨[]⟩ (fun p =>
      match CPFPacket.deserialize (p, .buffer (BufferReader.new (w.s.recvBuffer.take n))) with
      | (r, (p', _)) => (r, p')))

/-- `sendIOPacket` (src/session.cpp:353-357). -/
def sendTask (pkt : CPFPacket) : Task Unit := .last (do let _ ← sockSend .io pkt.obj)

/-- `socket_->close(); io_socket_->close();` (src/session.cpp:99-100, 106-107, 137-138, 161-162), and then `t`. -/
def closingTask {α : Type} (t : Task α) : Task α := .piece (sockClose .tcp) fun _ => .piece (sockClose .io) fun _ => t

/-- The handlers around `sendCommand` in `open` (src/session.cpp:97-110). -/
def openHandler {α : Type} (e : Exn) : Task α :=
  if e.kind.isA .lengthError then
    closingTask (.done (.throw (runtimeError "Invalid response received registering session")))
  else if e.kind.isA .logicError then
    closingTask (.done (.throw (runtimeError "Error in registration response")))
  else .done (.throw e)

/-- A piece of `open` with a part of `sendCommand`, inside the `try` (src/session.cpp:93-110). The last of them includes
what follows the `try` up to the next socket call: nothing there throws exceptions that the handlers would catch. -/
def openPiece {α β : Type} (p : Prog World β) (f : β → Task α) : Task α :=
  .next β p (fun
    | .ok b => f b
    | .throw e => openHandler e
    | .ub u => .done (.ub u))

/-- `open` (src/session.cpp:80-148). -/
def openTask (hostname port ioPort : String) : Task Unit :=
  .piece (sockOpen .tcp hostname port) fun _ =>
  .piece (sockOpen .io hostname ioPort) fun _ =>
  let regMsg := EncapPacket.withPayload cmdRegisterSession 0 (some RegisterSessionData.new.obj)
  openPiece (sockSend .tcp regMsg.obj) fun _ =>
  openPiece (do let bytes ← sockReceive .tcp; pure bytes.length) fun n =>
  openPiece
    (do
      let response ← parseReply regMsg n
      let regData ← parseRegistration response
      match regData with
      | some d =>
        if d.protocolVersion ≠ eipProtocolVersion then pure false
        else do
          Prog.modify (fun w => { w with s := { w.s with sessionId := response.header.sessionHandle } })
          pure true
      | none => do
        Prog.modify (fun w => { w with s := { w.s with sessionId := response.header.sessionHandle } })
        pure true)
    fun
    | true => .done (.ok ())
    | false => closingTask
        (.done (.throw (runtimeError "Received wrong Ethernet IP Protocol Version on registration")))

/-- `close` (src/session.cpp:150-164). -/
def closeTask : Task Unit :=
  .piece Prog.get fun w =>
  .piece (sockSend .tcp (EncapPacket.new cmdUnregisterSession w.s.sessionId).obj) fun _ =>
  closingTask (.last (Prog.modify (fun w => { w with s := { w.s with sessionId := 0 } })))

/-- `getSingleAttributeSerializable` (src/session.cpp:223-231), returning the result object. -/
def getValue {δ : Type} (c : Class δ) (init : δ) (classId instanceId attributeId : UInt8) : Prog World δ := fun w =>
  match getSingleAttributeSerializable c classId instanceId attributeId (init, w) with
  | (.ok (), (d, w')) => (.ok d, w')
  | (.throw e, (_, w')) => (.throw e, w')
  | (.ub u, (_, w')) => (.ub u, w')

end Session

/-- What a call returns (session.h:83-204); reading an attribute returns the object passed for the result. -/
abbrev Op.Value : Op → Type
  | .getAttribute δ .. => δ
  | .createConnection .. => Int
  | .getConnection _ => Connection
  | .receiveIOPacket => CPFPacket
  | _ => Unit

/-- A call (session.h:83-204) with its value. -/
def Op.value : (op : Op) → Prog World op.Value
  | .open h p i => Session.open h p i
  | .close => Session.close
  | .getAttribute _ c init x y z => Session.getValue c init x y z
  | .setAttribute x y z d => Session.setSingleAttributeSerializable x y z d
  | .createConnection o t => Session.createConnection o t
  | .closeConnection n => Session.closeConnection n
  | .getConnection n => Session.getConnection n
  | .receiveIOPacket => Session.receiveIOPacket
  | .sendIOPacket p => Session.sendIOPacket p

/-- A call (session.h:83-204) cut into pieces. -/
def Op.task : (op : Op) → Task op.Value
  | .open h p i => Session.openTask h p i
  | .close => Session.closeTask
  | .getAttribute _ c init x y z => Session.getTask c init x y z
  | .setAttribute x y z d => Session.setTask x y z d
  | .createConnection o t => Session.createTask o t
  | .closeConnection n => Session.closeConnectionTask n
  | .getConnection n => .last (Session.getConnection n)
  | .receiveIOPacket => Session.receiveTask
  | .sendIOPacket p => Session.sendTask p

/-- A session and the calls made on it by its threads: call number `i` is `ops i`, and `tasks i` is what remains to be
done of it; `made` says for every socket call so far to which of the calls it belonged. Calls that one thread makes one
after the other are different calls here. -/
structure Pool (ops : Nat → Op) where
  w : World
  tasks : (i : Nat) → Task (ops i).Value
  made : List Nat

namespace Pool

variable {ops : Nat → Op}

/-- No call has begun, in a session (session.h:83-204) in this state whose socket calls will be answered by `env`. -/
def start (ops : Nat → Op) (s : Session) (env : Nat → Answer) : Pool ops :=
  ⟨⟨s, env, 0, []⟩, fun i => (ops i).task, []⟩

/-- Call `i` becomes `t`. -/
def update (p : Pool ops) (i : Nat) (t : Task (ops i).Value) : (j : Nat) → Task (ops j).Value :=
  fun j => if h : j = i then h ▸ t else p.tasks j

/-- The thread of call `i` does its next piece. -/
def step (i : Nat) (p : Pool ops) : Pool ops :=
  match p.tasks i with
  | .done _ => p
  | .next _ q k =>
    ⟨(q p.w).2, p.update i (k (q p.w).1), p.made ++ List.replicate ((q p.w).2.clock - p.w.clock) i⟩

/-- The threads do pieces in the given order. -/
def steps : List Nat → Pool ops → Pool ops
  | [], p => p
  | i :: rest, p => steps rest (p.step i)

end Pool
end Eip
