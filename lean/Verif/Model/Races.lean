import Verif.Model.Threads
/-
The calls of src/session.cpp as sequences of single accesses to the members of the session (session.h:209-218) and to its
two sockets. Nothing in session.h or src/session.cpp takes a lock, so threads that share a session may be interrupted
between any two accesses.
-/
namespace Eip

/-- What the functions of a session access: its two sockets (session.h:209-210), the other members (session.h:211-218), of
which `my_vendor_id_` and `my_serial_num_` are one place here. -/
inductive Place
  | socket (s : Sock)
  | sessionId
  | recvBuffer
  | identity
  | nextSn
  | nextId
  | connections
  deriving DecidableEq, Repr

/-- A single access, with the type of what it yields. Simplifications: the vector of connections and the receive buffer are
each accessed as a whole. -/
inductive Access : Type → Type 1
  /-- `socket_->open` (src/session.cpp:83-84) -/
  | openSocket (s : Sock) (hostname port : String) : Access (Res Unit)
  /-- `socket_->close` (src/session.cpp:99-100, 106-107, 137-138, 161-162) -/
  | closeSocket (s : Sock) : Access (Res Unit)
  /-- `socket_->send` (src/session.cpp:157, 169, 356), without the serialization -/
  | send (s : Sock) (bytes : Bytes) : Access (Res Nat)
  /-- `socket_->receive` (src/session.cpp:172, 338), which stores to `recv_buffer_` -/
  | receive (s : Sock) : Access (Res Nat)
  /-- parsing the first `n` bytes of `recv_buffer_` (src/session.cpp:177, 343); payloads refer to it and are read again later -/
  | readBuffer (n : Nat) : Access Bytes
  /-- `session_id_` is read (src/session.cpp:156, 197-203, 247) -/
  | readId : Access UInt32
  /-- `session_id_` is stored (src/session.cpp:146, 163) -/
  | writeId (v : UInt32) : Access Unit
  /-- `my_vendor_id_`, `my_serial_num_` (src/session.cpp:300-301) -/
  | readIdentity : Access (UInt16 × UInt32)
  /-- `next_connection_sn_++` (src/session.cpp:302): the read -/
  | readSn : Access UInt16
  /-- `next_connection_sn_++` (src/session.cpp:302): the store -/
  | writeSn (v : UInt16) : Access Unit
  /-- `next_connection_id_++` (src/session.cpp:303-304): the read -/
  | readNextId : Access UInt32
  /-- `next_connection_id_++` (src/session.cpp:303-304): the store -/
  | writeNextId (v : UInt32) : Access Unit
  /-- `connections_` is read (src/session.cpp:316-317, 322, 326, 332, session.h:189) -/
  | readConnections : Access (List Connection)
  /-- `connections_` is changed (src/session.cpp:316 `push_back`, 332 `erase`) -/
  | writeConnections (l : List Connection) : Access Unit

namespace Access

/-- What an access does (lines as above). -/
def perform {β : Type} : Access β → World → β × World
  | .openSocket s h p, w => sockOpen s h p w
  | .closeSocket s, w => sockClose s w
  | .send s b, w => sockSendBuffer s b w
  | .receive s, w => (do let bytes ← sockReceive s; pure bytes.length : Prog World Nat) w
  | .readBuffer n, w => (w.s.recvBuffer.take n, w)
  | .readId, w => (w.s.sessionId, w)
  | .writeId v, w => ((), { w with s := { w.s with sessionId := v } })
  | .readIdentity, w => ((w.s.vendorId, w.s.serialNum), w)
  | .readSn, w => (w.s.nextConnectionSn, w)
  | .writeSn v, w => ((), { w with s := { w.s with nextConnectionSn := v } })
  | .readNextId, w => (w.s.nextConnectionId, w)
  | .writeNextId v, w => ((), { w with s := { w.s with nextConnectionId := v } })
  | .readConnections, w => (w.s.connections, w)
  | .writeConnections l, w => ((), { w with s := { w.s with connections := l } })

/-- The places an access reads (lines as above). -/
def reads {β : Type} : Access β → List Place
  | .readBuffer _ => [.recvBuffer]
  | .readId => [.sessionId]
  | .readIdentity => [.identity]
  | .readSn => [.nextSn]
  | .readNextId => [.nextId]
  | .readConnections => [.connections]
  | _ => []

/-- The places an access may change (lines as above). Assumption: a call on a socket counts as a change of it, since the
documentation of Boost.Asio says of its sockets "Shared objects: Unsafe" (socket/tcp_socket.h:45-98,
socket/udp_socket.h:45-100). -/
def writes {β : Type} : Access β → List Place
  | .openSocket s _ _ => [.socket s]
  | .closeSocket s => [.socket s]
  | .send s _ => [.socket s]
  | .receive s => [.socket s, .recvBuffer]
  | .writeId _ => [.sessionId]
  | .writeSn _ => [.nextSn]
  | .writeNextId _ => [.nextId]
  | .writeConnections _ => [.connections]
  | _ => []

end Access

/-- A function body, access by access: over with a result, or about to make an access and then to go on depending on what it
yielded. What happens between accesses concerns only objects of the function itself. -/
inductive Code (α : Type) : Type 1
  | done (r : Res α)
  | access {β : Type} (a : Access β) (next : β → Code α)

namespace Code

variable {α β : Type}

/-- One function body and then another; an exception skips the second. -/
def andThen : Code α → (α → Code β) → Code β
  | .done (.ok a), f => f a
  | .done (.throw e), _ => .done (.throw e)
  | .done (.ub u), _ => .done (.ub u)
  | .access a next, f => .access a (fun x => (next x).andThen f)

instance : Monad Code where
  pure a := .done (.ok a)
  bind := andThen

/-- `throw e;` -/
def raise (e : Exn) : Code α := .done (.throw e)

/-- `try { … } catch (std::length_error) { … } catch (std::logic_error) { … }`
(src/session.cpp:93-110, 119-131, 250-263, 266-279). -/
def catchLengthLogic : Code α → (onLength onLogic : Code α) → Code α
  | .done (.ok a), _, _ => .done (.ok a)
  | .done (.throw e), onLength, onLogic =>
    if e.kind.isA .lengthError then onLength else if e.kind.isA .logicError then onLogic else .done (.throw e)
  | .done (.ub u), _, _ => .done (.ub u)
  | .access a next, onLength, onLogic => .access a (fun x => (next x).catchLengthLogic onLength onLogic)

/-- An access that cannot fail. -/
def get (a : Access β) : Code β := .access a (fun x => .done (.ok x))

/-- An access that may throw. -/
def call (a : Access (Res β)) : Code β := .access a .done

/-- Code that accesses only local objects. -/
def own (p : Prog Unit β) : Code β := .done (p ()).1

/-- The accesses done in a row. -/
def alone : Code α → Prog World α
  | .done r => fun w => (r, w)
  | .access a next => fun w => (next (a.perform w).1).alone (a.perform w).2

end Code

namespace Session

/-- `Socket::send(const Serializable&)` (socket/socket.h:88-94). -/
def sendCode (s : Sock) (msg : Obj) : Code Nat := do
  let buf ← Code.own (serializeToVector msg.getLength msg.serialize)
  Code.call (.send s buf)

/-- `check_packet` (src/session.cpp:188-221). -/
def checkCode (pkt : EncapPacket) (expCmd : UInt16) : Code Unit :=
  if pkt.header.command ≠ expCmd then Code.raise (logicError "Reply received with wrong command")
  else do
    let first ← Code.get .readId
    if first = 0 ∧ pkt.header.sessionHandle = 0 then
      Code.raise (logicError "Zero session handle received on registration")
    else do
      let second ← Code.get .readId
      if second = 0 then pure ()
      else do
        let third ← Code.get .readId
        if pkt.header.sessionHandle ≠ third then Code.raise (logicError "Wrong session ID received for command")
        else pure ()

/-- `sendCommand` (src/session.cpp:166-186). -/
def commandCode (req : EncapPacket) : Code EncapPacket := do
  let _ ← sendCode .tcp req.obj
  let n ← Code.call (.receive .tcp)
  let bytes ← Code.get (.readBuffer n)
  let result ← Code.own (parsePacket bytes)
  checkCode result req.header.command
  pure result

/-- `socket_->close(); io_socket_->close();` (src/session.cpp:99-100, 106-107, 137-138, 161-162). -/
def closeSocketsCode : Code Unit := do
  Code.call (.closeSocket .tcp)
  Code.call (.closeSocket .io)

/-- The parsing of the registration reply in `open` (src/session.cpp:118-131). -/
def registrationCode (response : EncapPacket) : Code (Option RegisterSessionData) :=
  Code.catchLengthLogic
    (do
      let d ← Code.own (onLocal RegisterSessionData.new (response.getPayloadAs RegisterSessionData.cls))
      pure (some d))
    (pure none)
    (pure none)

/-- `open` (src/session.cpp:80-148). -/
def openCode (hostname port ioPort : String) : Code Unit := do
  Code.call (.openSocket .tcp hostname port)
  Code.call (.openSocket .io hostname ioPort)
  let regMsg := EncapPacket.withPayload cmdRegisterSession 0 (some RegisterSessionData.new.obj)
  let response ← Code.catchLengthLogic (commandCode regMsg)
    (do closeSocketsCode; Code.raise (runtimeError "Invalid response received registering session"))
    (do closeSocketsCode; Code.raise (runtimeError "Error in registration response"))
  let regData ← registrationCode response
  match regData with
  | some d =>
    if d.protocolVersion ≠ eipProtocolVersion then do
      closeSocketsCode
      Code.raise (runtimeError "Received wrong Ethernet IP Protocol Version on registration")
    else Code.get (.writeId response.header.sessionHandle)
  | none => Code.get (.writeId response.header.sessionHandle)

/-- `close` (src/session.cpp:150-164). -/
def closeCode : Code Unit := do
  let id ← Code.get .readId
  let _ ← sendCode .tcp (EncapPacket.new cmdUnregisterSession id).obj
  closeSocketsCode
  Code.get (.writeId 0)

/-- `sendRRDataCommand` (src/session.cpp:240-294). -/
def rrCode (service : UInt8) (path : Path) (data : Option Obj) : Code RRDataResponse := do
  let id ← Code.get .readId
  let encapPkt := EncapPacket.withPayload cmdSendRRData id (some (RRDataRequest.new service path data).obj)
  let response ← Code.catchLengthLogic (commandCode encapPkt)
    (Code.raise (runtimeError "Packet response to RR Data Command too short"))
    (Code.raise (runtimeError "Invalid packet response to RR Data Command"))
  let respData ← Code.catchLengthLogic (Code.own (onLocal RRDataResponse.new (response.getPayloadAs RRDataResponse.cls)))
    (Code.raise (runtimeError "Response data to RR Command too short"))
    (Code.raise (runtimeError "Invalid data in response to RR command"))
  if respData.getGeneralStatus ≠ 0 then Code.raise (runtimeError "RR Data Command Failed")
  else pure respData

/-- `getSingleAttributeSerializable` (src/session.cpp:223-231), returning the result object. -/
def getCode {δ : Type} (c : Class δ) (init : δ) (classId instanceId attributeId : UInt8) : Code δ := do
  let respData ← rrCode 0x0E (Path.mk3 classId instanceId attributeId) none
  Code.own (onLocal init (respData.getResponseDataAs c))

/-- `setSingleAttributeSerializable` (src/session.cpp:233-238). -/
def setCode (classId instanceId attributeId : UInt8) (data : Option Obj) : Code Unit := do
  let _ ← rrCode 0x10 (Path.mk3 classId instanceId attributeId) data

/-- `createConnection` (src/session.cpp:296-318). -/
def createCode (oToT tToO : ConnectionInfo) : Code Int := do
  let (vendor, serial) ← Code.get .readIdentity
  let sn ← Code.get .readSn
  Code.get (.writeSn (sn + 1))
  let id ← Code.get .readNextId
  Code.get (.writeNextId (id + 1))
  let id' ← Code.get .readNextId
  Code.get (.writeNextId (id' + 1))
  let conn : Connection := { Connection.new oToT tToO with
    originatorVendorId := vendor
    originatorSn := serial
    connectionSn := sn
    oToTConnectionId := id
    tToOConnectionId := id' }
  let respData ← rrCode 0x5B (Path.mk2 0x06 1) (some conn.createForwardOpenRequest.obj)
  let result ← Code.own (onLocal freshForwardOpenSuccess (respData.getResponseDataAs ForwardOpenSuccess.cls))
  match conn.verifyForwardOpenResult result with
  | (false, _) => Code.raise (logicError "Forward Open Response Invalid")
  | (true, conn') => do
    let l ← Code.get .readConnections
    Code.get (.writeConnections (l ++ [conn']))
    let l ← Code.get .readConnections
    pure (sizeToInt (sizeSub l.length 1))

/-- `closeConnection` (src/session.cpp:320-333). -/
def closeConnectionCode (n : Nat) : Code Unit := do
  let l ← Code.get .readConnections
  match l[n]? with
  | none => .done (.ub .indexOutOfRange)
  | some c => do
    let respData ← rrCode 0x4E (Path.mk2 0x06 1) (some c.createForwardCloseRequest.obj)
    let result ← Code.own (onLocal freshForwardCloseSuccess (respData.getResponseDataAs ForwardCloseSuccess.cls))
    let l ← Code.get .readConnections
    match l[n]? with
    | none => .done (.ub .indexOutOfRange)
    | some c =>
      if c.verifyForwardCloseResult result then do
        let l ← Code.get .readConnections
        Code.get (.writeConnections (l.eraseIdx n))
      else Code.raise (logicError "Forward Close Response Invalid")

/-- `getConnection` (session.h:187-190). -/
def getConnectionCode (n : Nat) : Code Connection := do
  let l ← Code.get .readConnections
  match l[n]? with
  | none => .done (.ub .indexOutOfRange)
  | some c => pure c

/-- `receiveIOPacket` (src/session.cpp:335-351). -/
def receiveCode : Code CPFPacket := do
  let n ← Code.call (.receive .io)
  let bytes ← Code.get (.readBuffer n)
  Code.own (onLocal ⟨[]⟩ (fun p =>
    match CPFPacket.deserialize (p, .buffer (BufferReader.new bytes)) with
    | (r, (p', _)) => (r, p')))

/-- `sendIOPacket` (src/session.cpp:353-357). -/
def sendIOCode (pkt : CPFPacket) : Code Unit := do
  let _ ← sendCode .io pkt.obj

end Session

/-- A call (session.h:83-204), access by access. -/
def Op.code : (op : Op) → Code op.Value
  | .open h p i => Session.openCode h p i
  | .close => Session.closeCode
  | .getAttribute _ c init x y z => Session.getCode c init x y z
  | .setAttribute x y z d => Session.setCode x y z d
  | .createConnection o t => Session.createCode o t
  | .closeConnection n => Session.closeConnectionCode n
  | .getConnection n => Session.getConnectionCode n
  | .receiveIOPacket => Session.receiveCode
  | .sendIOPacket p => Session.sendIOCode p

/-- A call (session.h:83-204) that is over, with its result. -/
abbrev Ended : Type 1 := (op : Op) × Res op.Value

/-- A thread that makes calls on a session (session.h:83-204): those that are over, the one under way, those to come. -/
structure Thread where
  past : List Ended
  now : Option ((op : Op) × Code op.Value)
  todo : List Op

/-- A thread that is going to make these calls (session.h:83-204). -/
def Thread.new (ops : List Op) : Thread := ⟨[], none, ops⟩

/-- The next step of a thread: an access, or the return from a call, or the start of the next one (session.h:83-204). A thread
goes on after exceptions; undefined behaviour ends it. -/
def Thread.step (t : Thread) (w : World) : Thread × World :=
  match t.now with
  | some ⟨op, .access a next⟩ => (⟨t.past, some ⟨op, next (a.perform w).1⟩, t.todo⟩, (a.perform w).2)
  | some ⟨op, .done (.ub u)⟩ => (⟨t.past ++ [⟨op, .ub u⟩], none, []⟩, w)
  | some ⟨op, .done r⟩ => (⟨t.past ++ [⟨op, r⟩], none, t.todo⟩, w)
  | none =>
    match t.todo with
    | [] => (t, w)
    | op :: rest => (⟨t.past, some ⟨op, op.code⟩, rest⟩, w)

/-- A session (session.h:61-247) and the threads that share it; `made` says for every socket call so far by which thread it
was made. -/
structure Crew where
  w : World
  threads : Nat → Thread
  made : List Nat

namespace Crew

/-- Nothing has been done yet, in a session (session.h:61-247) in this state whose socket calls will be answered by `env`. -/
def start (plan : Nat → List Op) (s : Session) (env : Nat → Answer) : Crew :=
  ⟨⟨s, env, 0, []⟩, fun i => Thread.new (plan i), []⟩

/-- Thread `i` does its next step (session.h:83-204). -/
def step (i : Nat) (c : Crew) : Crew :=
  let r := (c.threads i).step c.w
  ⟨r.2, fun j => if j = i then r.1 else c.threads j, c.made ++ List.replicate (r.2.clock - c.w.clock) i⟩

/-- The threads do steps in the given order. -/
def steps : List Nat → Crew → Crew
  | [], c => c
  | i :: rest, c => steps rest (c.step i)

end Crew
end Eip
