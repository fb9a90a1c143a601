import Verif.Model.Connection
import Verif.Model.Items
/-
socket/socket.h, session.h, src/session.cpp
-/
namespace Eip

/-! ### Sockets -/

/-- The two sockets of a session: `socket_` (usually TCP) and `io_socket_` (usually UDP), session.h:209-210. -/
inductive Sock
  | tcp
  | io
  deriving DecidableEq, Repr

/-- What the environment does to the next socket call: it may fail (`boost::system::system_error`), a receive
delivers `data`, a send accepts `accepted` bytes. -/
structure Answer where
  fails : Bool
  data : Bytes
  accepted : Nat
  deriving DecidableEq, Repr

/-- A call on a `Socket` (socket/socket.h:58-103) as seen from outside; `ok` is false when it threw. -/
inductive Ev
  | opened (s : Sock) (hostname port : String) (ok : Bool)
  | closed (s : Sock) (ok : Bool)
  | sent (s : Sock) (bytes : Bytes) (ok : Bool)
  | received (s : Sock) (data : Bytes) (ok : Bool)
  deriving DecidableEq, Repr

/-- `Session` (session.h:61-247) without the two socket pointers, which are part of `World`. -/
structure Session where
  sessionId : UInt32
  recvBuffer : Bytes
  vendorId : UInt16
  serialNum : UInt32
  nextConnectionSn : UInt16
  nextConnectionId : UInt32
  connections : List Connection
  deriving DecidableEq, Repr

/-- `sizeof(recv_buffer_)` (session.h:212). -/
def recvCapacity : Nat := 4 * 1024

/-- `Session(...)` (src/session.cpp:51-63): the starting serial number and id come from a random generator seeded
with the time and are arbitrary here, as is the initial memory of `recv_buffer_`. -/
def Session.new (vendorId : UInt16) (serialNum : UInt32) (sn : UInt16) (id : UInt32) (mem : Bytes) : Session :=
  ⟨0, mem, vendorId, serialNum, sn, id, []⟩

/-- A session, its sockets and the outside world: `env` answers the socket calls in order, `clock` counts them,
`trace` records them (newest last). -/
structure World where
  s : Session
  env : Nat → Answer
  clock : Nat
  trace : List Ev

/-- Any call on one of the sockets: ask the environment, record the event, throw if the call failed. -/
def sockCall (ev : Answer → Ev) : Prog World Answer := fun w =>
  let a := w.env w.clock
  let w' := { w with clock := w.clock + 1, trace := w.trace ++ [ev a] }
  if a.fails then (.throw systemError, w') else (.ok a, w')

/-- `Socket::open` (socket/socket.h:69, socket/tcp_socket.h:56-62, socket/udp_socket.h:57-64). -/
def sockOpen (s : Sock) (hostname port : String) : Prog World Unit := do
  let _ ← sockCall (fun a => .opened s hostname port (!a.fails))

/-- `Socket::close` (socket/socket.h:74, socket/tcp_socket.h:67-70, socket/udp_socket.h:69-72). -/
def sockClose (s : Sock) : Prog World Unit := do
  let _ ← sockCall (fun a => .closed s (!a.fails))

/-- `Socket::send(const_buffer)` (socket/socket.h:81, socket/tcp_socket.h:77-80,
socket/udp_socket.h:79-82). The number of bytes
accepted is returned and, as in the library, ignored by every caller. -/
def sockSendBuffer (s : Sock) (bytes : Bytes) : Prog World Nat := do
  let a ← sockCall (fun a => .sent s bytes (!a.fails))
  pure (min a.accepted bytes.length)

/-- Run a `serialize` on a `BufferWriter` over a zeroed `std::vector<char>(length)` and return the vector. -/
def serializeToVector {σ : Type} (length : Nat) (p : Prog Writer Unit) : Prog σ Bytes := fun w =>
  match p (.buffer (BufferWriter.new (List.replicate length 0))) with
  | (.ok (), .buffer bw) => (.ok bw.memory, w)
  | (.ok (), .stream _) => (.ok (List.replicate length 0), w)
  | (.throw e, _) => (.throw e, w)
  | (.ub u, _) => (.ub u, w)

/-- `Socket::send(const Serializable&)` (socket/socket.h:88-94). -/
def sockSend (s : Sock) (msg : Obj) : Prog World Nat := do
  let buf ← serializeToVector msg.getLength msg.serialize
  sockSendBuffer s buf

/-- `receive(buffer(recv_buffer_))` (src/session.cpp:172, 338): at most 4096 bytes, stored at the start of
`recv_buffer_`; returns the bytes of `buffer(recv_buffer_, n)` (lines 175, 341). -/
def sockReceive (s : Sock) : Prog World Bytes := do
  let a ← sockCall (fun a => .received s (a.data.take recvCapacity) (!a.fails))
  let n := (a.data.take recvCapacity).length
  Prog.modify (fun w => { w with s := { w.s with
    recvBuffer := a.data.take recvCapacity ++ w.s.recvBuffer.drop n } })
  let w ← Prog.get
  pure (w.s.recvBuffer.take n)

namespace Session

/-- `EIP_CMD_REGISTER_SESSION` (eip_types.h:65). -/
def cmdRegisterSession : UInt16 := 0x0065
/-- `EIP_CMD_UNREGISTER_SESSION` (eip_types.h:66). -/
def cmdUnregisterSession : UInt16 := 0x0066
/-- `EIP_CMD_SEND_RR_DATA` (eip_types.h:67). -/
def cmdSendRRData : UInt16 := 0x006F

/-- `try { p } catch (std::length_error) { onLength } catch (std::logic_error) { onLogic }`
(src/session.cpp:93-110, 119-131, 250-263, 266-279). -/
def catchLengthLogic {σ α : Type} (p : Prog σ α) (onLength onLogic : Prog σ α) : Prog σ α :=
  Prog.tryCatch p (fun e =>
    if e.kind.isA .lengthError then onLength
    else if e.kind.isA .logicError then onLogic
    else Prog.raise e)

/-- `check_packet` (src/session.cpp:188-221). Simplification: log messages are not modelled. -/
def checkPacket (pkt : EncapPacket) (expCmd : UInt16) : Prog World Unit := do
  let w ← Prog.get
  if pkt.header.command ≠ expCmd then
    Prog.raise (logicError "Reply received with wrong command")
  else if w.s.sessionId = 0 ∧ pkt.header.sessionHandle = 0 then
    Prog.raise (logicError "Zero session handle received on registration")
  else if w.s.sessionId ≠ 0 ∧ pkt.header.sessionHandle ≠ w.s.sessionId then
    Prog.raise (logicError "Wrong session ID received for command")
  else pure ()

/-- `EncapPacket result; result.deserialize(reader);` with a `BufferReader` over received bytes
(src/session.cpp:175-177). -/
def parsePacket {σ : Type} (bytes : Bytes) : Prog σ EncapPacket := fun w =>
  match EncapPacket.deserialize (EncapPacket.new, .buffer (BufferReader.new bytes)) with
  | (.ok (), (p, _)) => (.ok p, w)
  | (.throw e, _) => (.throw e, w)
  | (.ub u, _) => (.ub u, w)

/-- `sendCommand` (src/session.cpp:166-186). -/
def sendCommand (req : EncapPacket) : Prog World EncapPacket := do
  let _ ← sockSend .tcp req.obj
  let bytes ← sockReceive .tcp
  let result ← parsePacket bytes
  checkPacket result req.header.command
  pure result

/-- `socket_->close(); io_socket_->close();` (src/session.cpp:99-100, 106-107, 137-138, 161-162). -/
def closeSockets : Prog World Unit := do
  sockClose .tcp
  sockClose .io

/-- Run a program on a local object of type `δ` and return its outcome and final value. -/
def onLocal {σ δ : Type} (init : δ) (p : Prog δ Unit) : Prog σ δ := fun w =>
  match p init with
  | (.ok (), d) => (.ok d, w)
  | (.throw e, _) => (.throw e, w)
  | (.ub u, _) => (.ub u, w)

/-- The parsing of the registration reply in `open` (src/session.cpp:118-131): `some` of the reply data when
`response_valid`, `none` when it could not be parsed and was ignored. -/
def parseRegistration (response : EncapPacket) : Prog World (Option RegisterSessionData) :=
  catchLengthLogic
    (do
      let d ← onLocal RegisterSessionData.new (response.getPayloadAs RegisterSessionData.cls)
      pure (some d))
    (pure none)
    (pure none)

/-- `open` (src/session.cpp:80-148). -/
def «open» (hostname port ioPort : String) : Prog World Unit := do
  sockOpen .tcp hostname port
  sockOpen .io hostname ioPort
  let regMsg := EncapPacket.withPayload cmdRegisterSession 0 (some RegisterSessionData.new.obj)
  let response ← catchLengthLogic (sendCommand regMsg)
    (do closeSockets; Prog.raise (runtimeError "Invalid response received registering session"))
    (do closeSockets; Prog.raise (runtimeError "Error in registration response"))
  let regData ← parseRegistration response
  match regData with
  | some d =>
    if d.protocolVersion ≠ eipProtocolVersion then do
      closeSockets
      Prog.raise (runtimeError "Received wrong Ethernet IP Protocol Version on registration")
    else
      Prog.modify (fun w => { w with s := { w.s with sessionId := response.header.sessionHandle } })
  | none =>
    Prog.modify (fun w => { w with s := { w.s with sessionId := response.header.sessionHandle } })

/-- `close` (src/session.cpp:150-164). -/
def close : Prog World Unit := do
  let w ← Prog.get
  let _ ← sockSend .tcp (EncapPacket.new cmdUnregisterSession w.s.sessionId).obj
  closeSockets
  Prog.modify (fun w => { w with s := { w.s with sessionId := 0 } })

/-- `~Session` (src/session.cpp:65-78). -/
def destroy : Prog World Unit :=
  Prog.tryCatch
    (do
      let w ← Prog.get
      if w.s.sessionId ≠ 0 then close else pure ())
    (fun _ => pure ())

/-- `sendRRDataCommand` (src/session.cpp:240-294). A wrong service code is only logged (lines 282-287). -/
def sendRRDataCommand (service : UInt8) (path : Path) (data : Option Obj) : Prog World RRDataResponse := do
  let w ← Prog.get
  let reqData := RRDataRequest.new service path data
  let encapPkt := EncapPacket.withPayload cmdSendRRData w.s.sessionId (some reqData.obj)
  let response ← catchLengthLogic (sendCommand encapPkt)
    (Prog.raise (runtimeError "Packet response to RR Data Command too short"))
    (Prog.raise (runtimeError "Invalid packet response to RR Data Command"))
  let respData ← catchLengthLogic (onLocal RRDataResponse.new (response.getPayloadAs RRDataResponse.cls))
    (Prog.raise (runtimeError "Response data to RR Command too short"))
    (Prog.raise (runtimeError "Invalid data in response to RR command"))
  if respData.getGeneralStatus ≠ 0 then Prog.raise (runtimeError "RR Data Command Failed")
  else pure respData

/-- Run a program on the second component. -/
def onWorld {δ α : Type} (p : Prog World α) : Prog (δ × World) α :=
  Prog.zoom (·.2) (fun w s => (s.1, w)) p

/-- Run a program on the first component. -/
def onResult {δ α : Type} (p : Prog δ α) : Prog (δ × World) α :=
  Prog.zoom (·.1) (fun d s => (d, s.2)) p

/-- `getSingleAttributeSerializable` (src/session.cpp:223-231); `result` is the first component. -/
def getSingleAttributeSerializable {δ : Type} (c : Class δ) (classId instanceId attributeId : UInt8) :
    Prog (δ × World) Unit := do
  let respData ← onWorld (sendRRDataCommand 0x0E (Path.mk3 classId instanceId attributeId) none)
  onResult (respData.getResponseDataAs c)

/-- `getSingleAttribute<T>` (session.h:116-122); `init` is the uninitialised memory of the local. -/
def getSingleAttribute {τ : Type} (c : Codec τ) (classId instanceId attributeId : UInt8) (init : τ) :
    Prog World τ := fun w =>
  match getSingleAttributeSerializable (SerializablePrimitive.cls c) classId instanceId attributeId
      (⟨init⟩, w) with
  | (.ok (), (d, w')) => (.ok d.data, w')
  | (.throw e, (_, w')) => (.throw e, w')
  | (.ub u, (_, w')) => (.ub u, w')

/-- `setSingleAttributeSerializable` (src/session.cpp:233-238). -/
def setSingleAttributeSerializable (classId instanceId attributeId : UInt8) (data : Option Obj) :
    Prog World Unit := do
  let _ ← sendRRDataCommand 0x10 (Path.mk3 classId instanceId attributeId) data

/-- `setSingleAttribute<T>` (session.h:141-148). -/
def setSingleAttribute {τ : Type} (c : Codec τ) (classId instanceId attributeId : UInt8) (v : τ) :
    Prog World Unit :=
  setSingleAttributeSerializable classId instanceId attributeId (some (SerializablePrimitive.obj c ⟨v⟩))

/-- The uninitialised `ForwardOpenSuccess result;` of src/session.cpp:308, with zeros for the unknown memory: every
member is overwritten or an exception leaves the function (C121). -/
def freshForwardOpenSuccess : ForwardOpenSuccess := ⟨0, 0, 0, 0, 0, 0, 0, none⟩

/-- The uninitialised `ForwardCloseSuccess result;` of src/session.cpp:324; see above. -/
def freshForwardCloseSuccess : ForwardCloseSuccess := ⟨0, 0, 0, none⟩

/-- The connection object `createConnection` builds before sending (src/session.cpp:299-304). -/
def prepareConnection (s : Session) (oToT tToO : ConnectionInfo) : Connection :=
  { Connection.new oToT tToO with
    originatorVendorId := s.vendorId
    originatorSn := s.serialNum
    connectionSn := s.nextConnectionSn
    oToTConnectionId := s.nextConnectionId
    tToOConnectionId := s.nextConnectionId + 1 }

/-- `createConnection` (src/session.cpp:296-318). -/
def createConnection (oToT tToO : ConnectionInfo) : Prog World Int := do
  let w ← Prog.get
  let conn := prepareConnection w.s oToT tToO
  Prog.modify (fun w => { w with s := { w.s with
    nextConnectionSn := w.s.nextConnectionSn + 1
    nextConnectionId := w.s.nextConnectionId + 1 + 1 } })
  let respData ← sendRRDataCommand 0x5B (Path.mk2 0x06 1) (some conn.createForwardOpenRequest.obj)
  let result ← onLocal freshForwardOpenSuccess (respData.getResponseDataAs ForwardOpenSuccess.cls)
  match conn.verifyForwardOpenResult result with
  | (false, _) => Prog.raise (logicError "Forward Open Response Invalid")
  | (true, conn') => do
    Prog.modify (fun w => { w with s := { w.s with connections := w.s.connections ++ [conn'] } })
    let w ← Prog.get
    pure (sizeToInt (sizeSub w.s.connections.length 1))

/-- `closeConnection` (src/session.cpp:320-333). -/
def closeConnection (n : Nat) : Prog World Unit := do
  let w ← Prog.get
  match w.s.connections[n]? with
  | none => Prog.undef .indexOutOfRange
  | some c => do
    let respData ← sendRRDataCommand 0x4E (Path.mk2 0x06 1) (some c.createForwardCloseRequest.obj)
    let result ← onLocal freshForwardCloseSuccess (respData.getResponseDataAs ForwardCloseSuccess.cls)
    let w ← Prog.get
    match w.s.connections[n]? with
    | none => Prog.undef .indexOutOfRange
    | some c =>
      if c.verifyForwardCloseResult result then
        Prog.modify (fun w => { w with s := { w.s with connections := w.s.connections.eraseIdx n } })
      else Prog.raise (logicError "Forward Close Response Invalid")

/-- `getConnection` (session.h:187-190). -/
def getConnection (n : Nat) : Prog World Connection := do
  let w ← Prog.get
  match w.s.connections[n]? with
  | none => Prog.undef .indexOutOfRange
  | some c => pure c

/-- `receiveIOPacket` (src/session.cpp:335-351), at value level: the items' data are the bytes as they are when the
call returns. That they alias `recv_buffer_` is modelled in `Verif.Model.Refs`. -/
def receiveIOPacket : Prog World CPFPacket := do
  let bytes ← sockReceive .io
  onLocal ⟨[]⟩ (fun p =>
    match CPFPacket.deserialize (p, .buffer (BufferReader.new bytes)) with
    | (r, (p', _)) => (r, p'))

/-- `sendIOPacket` (src/session.cpp:353-357). -/
def sendIOPacket (pkt : CPFPacket) : Prog World Unit := do
  let _ ← sockSend .io pkt.obj

end Session

/-! ### Histories -/

/-- A call on the public interface of `Session` (session.h:83-204). -/
inductive Op : Type 1
  | «open» (hostname port ioPort : String)
  | close
  | getAttribute (δ : Type) (c : Class δ) (init : δ) (classId instanceId attributeId : UInt8)
  | setAttribute (classId instanceId attributeId : UInt8) (data : Option Obj)
  | createConnection (oToT tToO : ConnectionInfo)
  | closeConnection (n : Nat)
  | getConnection (n : Nat)
  | receiveIOPacket
  | sendIOPacket (pkt : CPFPacket)

/-- Forget the value returned by a call. -/
def Prog.forget {σ α : Type} (p : Prog σ α) : Prog σ Unit := do
  let _ ← p

/-- Run one call; the result value is dropped, exceptions are kept. -/
def Op.run : Op → Prog World Unit
  | .open h p i => Session.open h p i
  | .close => Session.close
  | .getAttribute _ c init x y z => fun w =>
    match Session.getSingleAttributeSerializable c x y z (init, w) with
    | (r, (_, w')) => (r, w')
  | .setAttribute x y z d => Session.setSingleAttributeSerializable x y z d
  | .createConnection o t => (Session.createConnection o t).forget
  | .closeConnection n => Session.closeConnection n
  | .getConnection n => (Session.getConnection n).forget
  | .receiveIOPacket => Session.receiveIOPacket.forget
  | .sendIOPacket p => Session.sendIOPacket p

/-- A history of calls: the caller goes on after exceptions; undefined behaviour ends the run. Returns the world
and `true` when no undefined behaviour was hit. -/
def runOps : List Op → World → World × Bool
  | [], w => (w, true)
  | op :: ops, w =>
    match op.run w with
    | (.ok _, w') => runOps ops w'
    | (.throw _, w') => runOps ops w'
    | (.ub _, w') => (w', false)

end Eip
