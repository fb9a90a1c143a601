import Verif.Model.Session
/-
Sessions when memory runs out. The rest of the model assumes that every allocation succeeds. Here the places where the
functions of `Session` allocate are marked, and any of them may throw `std::bad_alloc`.

Simplifications: `alloc` stands for all allocations between two effects on the world outside or on the session - the
`make_shared` and vectors of requests and packets, the `std::string` each log message is handed on as - since those before
the failing one only touch local objects. Places where nothing allocates after all do no harm: the theorems are about
all ways to fail. Allocations inside Boost.Asio are counted as failures of the socket call.
-/
namespace Eip

/-- A world with the outcomes of the next allocations; when the list is used up, memory suffices (src/session.cpp). -/
structure TightWorld where
  w : World
  supply : List Bool

/-- A function of `Session` (src/session.cpp) that may run out of memory: `none` when `std::bad_alloc` leaves it. -/
def Tight (α : Type) : Type := TightWorld → Option (Res α) × TightWorld

namespace Tight
variable {α β : Type}

/-- Sequencing (every function of src/session.cpp): `std::bad_alloc` skips the rest, as any exception does. -/
def andThen (t : Tight α) (f : α → Tight β) : Tight β := fun x =>
  match t x with
  | (some (.ok a), x') => f a x'
  | (some (.throw e), x') => (some (.throw e), x')
  | (some (.ub u), x') => (some (.ub u), x')
  | (none, x') => (none, x')

/-- Something that does not allocate (src/session.cpp). -/
def lift (p : Prog World α) : Tight α := fun x =>
  match p x.w with
  | (r, w') => (some r, { x with w := w' })

instance : Monad Tight where
  pure a := lift (pure a)
  bind := andThen

/-- Allocations (the file comment above says which; src/session.cpp). -/
def alloc : Tight Unit := fun x =>
  match x.supply with
  | [] => (some (.ok ()), x)
  | true :: rest => (some (.ok ()), { x with supply := rest })
  | false :: rest => (none, { x with supply := rest })

/-- `try { } catch (std::length_error) { } catch (std::logic_error) { }` (src/session.cpp:93-110, 250-279):
`std::bad_alloc` is neither and goes through. -/
def catchLengthLogic (t onLength onLogic : Tight α) : Tight α := fun x =>
  match t x with
  | (some (.throw e), x') =>
    if e.kind.isA .lengthError then onLength x'
    else if e.kind.isA .logicError then onLogic x'
    else (some (.throw e), x')
  | y => y

end Tight

namespace Session
open Tight

/-- `sendCommand` (src/session.cpp:166-186). -/
def sendCommandT (req : EncapPacket) : Tight EncapPacket := do
  alloc
  let _ ← lift (sockSend .tcp req.obj)
  alloc
  let bytes ← lift (sockReceive .tcp)
  alloc
  let result ← lift (parsePacket bytes)
  alloc
  lift (checkPacket result req.header.command)
  alloc
  pure result

/-- `open` (src/session.cpp:80-148): the last allocation is that of the message of line 147, when `session_id_` is
already set. -/
def openT (hostname port ioPort : String) : Tight Unit := do
  alloc
  lift (sockOpen .tcp hostname port)
  lift (sockOpen .io hostname ioPort)
  alloc
  let response ← Tight.catchLengthLogic
    (sendCommandT (EncapPacket.withPayload cmdRegisterSession 0 (some RegisterSessionData.new.obj)))
    (do lift closeSockets; alloc; lift (Prog.raise (runtimeError "Invalid response received registering session")))
    (do lift closeSockets; alloc; lift (Prog.raise (runtimeError "Error in registration response")))
  alloc
  let regData ← lift (parseRegistration response)
  alloc
  match regData with
  | some d =>
    if d.protocolVersion ≠ eipProtocolVersion then do
      lift closeSockets
      alloc
      lift (Prog.raise (runtimeError "Received wrong Ethernet IP Protocol Version on registration"))
    else do
      lift (Prog.modify (fun w => { w with s := { w.s with sessionId := response.header.sessionHandle } }))
      alloc
  | none => do
    lift (Prog.modify (fun w => { w with s := { w.s with sessionId := response.header.sessionHandle } }))
    alloc

/-- `close` (src/session.cpp:150-164): there is a message between sending and closing (line 159). -/
def closeT : Tight Unit := do
  alloc
  let w ← lift Prog.get
  let _ ← lift (sockSend .tcp (EncapPacket.new cmdUnregisterSession w.s.sessionId).obj)
  alloc
  lift closeSockets
  lift (Prog.modify (fun w => { w with s := { w.s with sessionId := 0 } }))

/-- `~Session` (src/session.cpp:65-78): `catch (...)` takes everything. -/
def destroyT : Tight Unit := fun x =>
  if x.w.s.sessionId ≠ 0 then
    match closeT x with
    | (some (.ub u), x') => (some (.ub u), x')
    | (_, x') => (some (.ok ()), x')
  else (some (.ok ()), x)

/-- `sendRRDataCommand` (src/session.cpp:240-294). -/
def sendRRDataCommandT (service : UInt8) (path : Path) (data : Option Obj) : Tight RRDataResponse := do
  alloc
  let w ← lift Prog.get
  let response ← Tight.catchLengthLogic
    (sendCommandT (EncapPacket.withPayload cmdSendRRData w.s.sessionId (some (RRDataRequest.new service path data).obj)))
    (do alloc; lift (Prog.raise (runtimeError "Packet response to RR Data Command too short")))
    (do alloc; lift (Prog.raise (runtimeError "Invalid packet response to RR Data Command")))
  let respData ← Tight.catchLengthLogic
    (do alloc; lift (onLocal RRDataResponse.new (response.getPayloadAs RRDataResponse.cls)))
    (do alloc; lift (Prog.raise (runtimeError "Response data to RR Command too short")))
    (do alloc; lift (Prog.raise (runtimeError "Invalid data in response to RR command")))
  alloc
  lift (if respData.getGeneralStatus ≠ 0 then Prog.raise (runtimeError "RR Data Command Failed") else pure respData)

/-- `getSingleAttributeSerializable` (src/session.cpp:223-231); the result is dropped. -/
def getAttributeT {δ : Type} (c : Class δ) (init : δ) (classId instanceId attributeId : UInt8) : Tight Unit := do
  alloc
  let respData ← sendRRDataCommandT 0x0E (Path.mk3 classId instanceId attributeId) none
  alloc
  lift (onLocal init (respData.getResponseDataAs c)).forget

/-- `setSingleAttributeSerializable` (src/session.cpp:233-238). -/
def setAttributeT (classId instanceId attributeId : UInt8) (data : Option Obj) : Tight Unit := do
  alloc
  let _ ← sendRRDataCommandT 0x10 (Path.mk3 classId instanceId attributeId) data

/-- `createConnection` (src/session.cpp:296-318): `push_back` allocates, and changes nothing if that fails. -/
def createConnectionT (oToT tToO : ConnectionInfo) : Tight Int := do
  alloc
  let w ← lift Prog.get
  let conn := prepareConnection w.s oToT tToO
  lift (Prog.modify (fun w => { w with s := { w.s with
    nextConnectionSn := w.s.nextConnectionSn + 1
    nextConnectionId := w.s.nextConnectionId + 1 + 1 } }))
  alloc
  let respData ← sendRRDataCommandT 0x5B (Path.mk2 0x06 1) (some conn.createForwardOpenRequest.obj)
  alloc
  let result ← lift (onLocal freshForwardOpenSuccess (respData.getResponseDataAs ForwardOpenSuccess.cls))
  alloc
  match conn.verifyForwardOpenResult result with
  | (false, _) => lift (Prog.raise (logicError "Forward Open Response Invalid"))
  | (true, conn') => lift (do
    Prog.modify (fun w => { w with s := { w.s with connections := w.s.connections ++ [conn'] } })
    let w ← Prog.get
    pure (sizeToInt (sizeSub w.s.connections.length 1)))

/-- `closeConnection` (src/session.cpp:320-333): `erase` moves the later connections, which does not
allocate (compiled as C++11 or later: neither `Connection` nor `Path` declares a copy operation or destructor). -/
def closeConnectionT (n : Nat) : Tight Unit := do
  let w ← lift Prog.get
  match w.s.connections[n]? with
  | none => lift (Prog.undef .indexOutOfRange)
  | some c => do
    alloc
    let respData ← sendRRDataCommandT 0x4E (Path.mk2 0x06 1) (some c.createForwardCloseRequest.obj)
    alloc
    let result ← lift (onLocal freshForwardCloseSuccess (respData.getResponseDataAs ForwardCloseSuccess.cls))
    alloc
    lift (do
      let w ← Prog.get
      match w.s.connections[n]? with
      | none => Prog.undef .indexOutOfRange
      | some c =>
        if c.verifyForwardCloseResult result then
          Prog.modify (fun w => { w with s := { w.s with connections := w.s.connections.eraseIdx n } })
        else Prog.raise (logicError "Forward Close Response Invalid"))

/-- `receiveIOPacket` (src/session.cpp:335-351). -/
def receiveIOPacketT : Tight CPFPacket := do
  alloc
  let bytes ← lift (sockReceive .io)
  alloc
  let result ← lift (onLocal ⟨[]⟩ (fun p =>
    match CPFPacket.deserialize (p, .buffer (BufferReader.new bytes)) with
    | (r, (p', _)) => (r, p')))
  alloc
  pure result

/-- `sendIOPacket` (src/session.cpp:353-357). -/
def sendIOPacketT (pkt : CPFPacket) : Tight Unit := do
  alloc
  let _ ← lift (sockSend .io pkt.obj)

end Session

/-- Run one call of the public interface (session.h:83-204) with little memory; the result value is dropped. -/
def Op.runT : Op → Tight Unit
  | .open h p i => Session.openT h p i
  | .close => Session.closeT
  | .getAttribute _ c init x y z => Session.getAttributeT c init x y z
  | .setAttribute x y z d => Session.setAttributeT x y z d
  | .createConnection o t => do let _ ← Session.createConnectionT o t
  | .closeConnection n => Session.closeConnectionT n
  | .getConnection n => Tight.lift (Session.getConnection n).forget
  | .receiveIOPacket => do let _ ← Session.receiveIOPacketT
  | .sendIOPacket p => Session.sendIOPacketT p

/-- A history of calls with little memory (session.h:83-204): the caller goes on after exceptions, `std::bad_alloc`
included; undefined behaviour ends the run. Returns the world and `true` when no undefined behaviour was hit. -/
def runOpsT : List Op → TightWorld → TightWorld × Bool
  | [], x => (x, true)
  | op :: ops, x =>
    match op.runT x with
    | (some (.ub _), x') => (x', false)
    | (_, x') => runOpsT ops x'

end Eip
