import Verif.Model.Session
import Verif.Model.Scanner
/-
Objects whose constructors leave members uninitialised, with the memory they are built in as a parameter (C121).
-/
namespace Eip

/-- What the memory of the objects contains that a call of `Session` builds: `Connection conn` (src/session.cpp:299), the two
requests (src/connection.cpp:61, 88) and `result` (src/session.cpp:308, 324). -/
structure Garbage where
  connection : Connection
  openRequest : ForwardOpenRequest
  closeRequest : ForwardCloseRequest
  openReply : ForwardOpenSuccess
  closeReply : ForwardCloseSuccess

/-- `Connection(o_to_t, t_to_o)` (src/connection.cpp:36-48) in memory that contains `g`: assigns the members one by one;
`path_` has a constructor of its own (connection.h:115). -/
def Connection.newIn (g : Connection) (oToT tToO : ConnectionInfo) : Connection :=
  let c := { g with path := Path.mk0 }
  let c := { c with oToTRpi := oToT.rpi }
  let c := { c with tToORpi := tToO.rpi }
  let c := { c with oToTBufferSize := oToT.bufferSize }
  let c := { c with tToOBufferSize := tToO.bufferSize }
  let c := { c with timeoutTickSize := 6 }
  let c := { c with timeoutTicks := 80 }
  let c := { c with timeoutMultiplyer := 0 }
  let c := { c with oToTApi := 0 }
  let c := { c with tToOApi := 0 }
  c.setConnectionPoints oToT.assemblyId tToO.assemblyId

/-- `ForwardOpenRequest()` (forward_open_request.h:66-82, 197, no constructor) in memory that contains `g`: only the path is
constructed. -/
def ForwardOpenRequest.newIn (g : ForwardOpenRequest) : ForwardOpenRequest := { g with path := Path.mk0 }

/-- `ForwardCloseRequest()` (forward_close_request.h:49-57, 119, no constructor) in memory that contains `g`: only the path is
constructed. -/
def ForwardCloseRequest.newIn (g : ForwardCloseRequest) : ForwardCloseRequest := { g with path := Path.mk0 }

/-- `ForwardOpenSuccess result;` (forward_open_success.h:53-63, no constructor): only the pointer is constructed. -/
def ForwardOpenSuccess.newIn (g : ForwardOpenSuccess) : ForwardOpenSuccess := { g with responseData := none }

/-- `ForwardCloseSuccess result;` (forward_close_success.h:53-59, no constructor): only the pointer is constructed. -/
def ForwardCloseSuccess.newIn (g : ForwardCloseSuccess) : ForwardCloseSuccess := { g with responseData := none }

/-- `IdentityItemData id;` (identity_item_data.h:46-58, no constructor): only the name is constructed. -/
def IdentityItemData.newIn (g : IdentityItemData) : IdentityItemData := { g with productName := [] }

/-- `createForwardOpenRequest` (src/connection.cpp:59-84), assignment by assignment. -/
def Connection.createForwardOpenRequestIn (g : ForwardOpenRequest) (c : Connection) : ForwardOpenRequest :=
  let req := ForwardOpenRequest.newIn g
  let req := { req with originatorVendorId := c.originatorVendorId }
  let req := { req with originatorSn := c.originatorSn }
  let req := { req with connectionSn := c.connectionSn }
  let req := { req with oToTConnectionId := c.oToTConnectionId }
  let req := { req with tToOConnectionId := c.tToOConnectionId }
  let req := { req with timeoutTickSize := c.timeoutTickSize }
  let req := { req with timeoutTicks := c.timeoutTicks }
  let req := { req with timeoutMultiplyer := c.timeoutMultiplyer }
  let req := { req with oToTRpi := c.oToTRpi }
  let req := { req with tToORpi := c.tToORpi }
  let req := { req with connType := 1 }
  let req := { req with oToTConnParams :=
    ForwardOpenRequest.calcConnectionParams c.oToTBufferSize false priorityScheduled typeP2P false }
  let req := { req with tToOConnParams :=
    ForwardOpenRequest.calcConnectionParams c.tToOBufferSize true priorityScheduled typeP2P false }
  { req with path := c.path }

/-- `createForwardCloseRequest` (src/connection.cpp:86-101), assignment by assignment. -/
def Connection.createForwardCloseRequestIn (g : ForwardCloseRequest) (c : Connection) : ForwardCloseRequest :=
  let req := ForwardCloseRequest.newIn g
  let req := { req with originatorVendorId := c.originatorVendorId }
  let req := { req with originatorSn := c.originatorSn }
  let req := { req with connectionSn := c.connectionSn }
  let req := { req with timeoutTickSize := c.timeoutTickSize }
  let req := { req with timeoutTicks := c.timeoutTicks }
  { req with path := Path.mk2 0x02 0x01 }

namespace Session

/-- The connection object of `createConnection` before it is sent (src/session.cpp:299-304). -/
def prepareConnectionIn (g : Connection) (s : Session) (oToT tToO : ConnectionInfo) : Connection :=
  { Connection.newIn g oToT tToO with
    originatorVendorId := s.vendorId
    originatorSn := s.serialNum
    connectionSn := s.nextConnectionSn
    oToTConnectionId := s.nextConnectionId
    tToOConnectionId := s.nextConnectionId + 1 }

/-- `createConnection` (src/session.cpp:296-318) with its objects in memory that contains `g`. -/
def createConnectionIn (g : Garbage) (oToT tToO : ConnectionInfo) : Prog World Int := do
  let w ← Prog.get
  let conn := prepareConnectionIn g.connection w.s oToT tToO
  Prog.modify (fun w => { w with s := { w.s with
    nextConnectionSn := w.s.nextConnectionSn + 1
    nextConnectionId := w.s.nextConnectionId + 1 + 1 } })
  let respData ← sendRRDataCommand 0x5B (Path.mk2 0x06 1) (some (conn.createForwardOpenRequestIn g.openRequest).obj)
  let result ← onLocal (ForwardOpenSuccess.newIn g.openReply) (respData.getResponseDataAs ForwardOpenSuccess.cls)
  match conn.verifyForwardOpenResult result with
  | (false, _) => Prog.raise (logicError "Forward Open Response Invalid")
  | (true, conn') => do
    Prog.modify (fun w => { w with s := { w.s with connections := w.s.connections ++ [conn'] } })
    let w ← Prog.get
    pure (sizeToInt (sizeSub w.s.connections.length 1))

/-- `closeConnection` (src/session.cpp:320-333) with its objects in memory that contains `g`. -/
def closeConnectionIn (g : Garbage) (n : Nat) : Prog World Unit := do
  let w ← Prog.get
  match w.s.connections[n]? with
  | none => Prog.undef .indexOutOfRange
  | some c => do
    let respData ← sendRRDataCommand 0x4E (Path.mk2 0x06 1) (some (c.createForwardCloseRequestIn g.closeRequest).obj)
    let result ← onLocal (ForwardCloseSuccess.newIn g.closeReply) (respData.getResponseDataAs ForwardCloseSuccess.cls)
    let w ← Prog.get
    match w.s.connections[n]? with
    | none => Prog.undef .indexOutOfRange
    | some c =>
      if c.verifyForwardCloseResult result then
        Prog.modify (fun w => { w with s := { w.s with connections := w.s.connections.eraseIdx n } })
      else Prog.raise (logicError "Forward Close Response Invalid")

end Session

/-- A call on `Session` (session.h:83-204) whose objects are built in memory that contains `g`. -/
def Op.runIn (g : Garbage) : Op → Prog World Unit
  | .createConnection o t => (Session.createConnectionIn g o t).forget
  | .closeConnection n => Session.closeConnectionIn g n
  | op => op.run

/-- A history of calls (as `runOps`), each with memory of its own: `g k` for the `k`th call. -/
def runOpsIn (g : Nat → Garbage) : List Op → World → World × Bool
  | [], w => (w, true)
  | op :: ops, w =>
    match op.runIn (g 0) w with
    | (.ok _, w') => runOpsIn (fun k => g (k + 1)) ops w'
    | (.throw _, w') => runOpsIn (fun k => g (k + 1)) ops w'
    | (.ub _, w') => (w', false)

end Eip
