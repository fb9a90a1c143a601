import Verif.Model.Messages
/-
connection.h, src/connection.cpp
-/
namespace Eip

/-- `EIP_CONNECTION_INFO_T` (eip_types.h:97-105). -/
structure ConnectionInfo where
  assemblyId : UInt8
  bufferSize : UInt16
  rpi : UInt32
  deriving DecidableEq, Repr

/-- `Connection` (connection.h:46-117). -/
structure Connection where
  originatorVendorId : UInt16
  originatorSn : UInt32
  connectionSn : UInt16
  oToTConnectionId : UInt32
  tToOConnectionId : UInt32
  timeoutTickSize : UInt8
  timeoutTicks : UInt8
  timeoutMultiplyer : UInt8
  oToTRpi : UInt32
  tToORpi : UInt32
  oToTApi : UInt32
  tToOApi : UInt32
  oToTBufferSize : UInt16
  tToOBufferSize : UInt16
  path : Path
  deriving DecidableEq, Repr

namespace Connection

/-- `setConnectionPoints` (src/connection.cpp:50-57). -/
def setConnectionPoints (c : Connection) (origin target : UInt8) : Connection :=
  { c with path := (((c.path.reset.addLogicalClass 0x04).addLogicalInstance 1).addLogicalConnectionPoint
      origin).addLogicalConnectionPoint target }

/-- `Connection(o_to_t, t_to_o)` (src/connection.cpp:36-48). Simplification: the members the constructor leaves
uninitialised (originator, serial number, connection ids) are 0 here; every use in the library assigns them
first (src/session.cpp:299-304). `Model/Uninit` has them as whatever the memory contained (C121). -/
def new (oToT tToO : ConnectionInfo) : Connection :=
  setConnectionPoints
    { originatorVendorId := 0, originatorSn := 0, connectionSn := 0, oToTConnectionId := 0,
      tToOConnectionId := 0, timeoutTickSize := 6, timeoutTicks := 80, timeoutMultiplyer := 0,
      oToTRpi := oToT.rpi, tToORpi := tToO.rpi, oToTApi := 0, tToOApi := 0,
      oToTBufferSize := oToT.bufferSize, tToOBufferSize := tToO.bufferSize, path := Path.mk0 }
    oToT.assemblyId tToO.assemblyId

/-- `CONN_PRIORITY_SCHEDULED` (forward_open_request.h:50). -/
def priorityScheduled : UInt8 := 2
/-- `CONN_TYPE_P2P` (forward_open_request.h:58). -/
def typeP2P : UInt8 := 2

/-- `createForwardOpenRequest` (src/connection.cpp:59-84). -/
def createForwardOpenRequest (c : Connection) : ForwardOpenRequest where
  originatorVendorId := c.originatorVendorId
  originatorSn := c.originatorSn
  connectionSn := c.connectionSn
  oToTConnectionId := c.oToTConnectionId
  tToOConnectionId := c.tToOConnectionId
  timeoutTickSize := c.timeoutTickSize
  timeoutTicks := c.timeoutTicks
  timeoutMultiplyer := c.timeoutMultiplyer
  oToTRpi := c.oToTRpi
  tToORpi := c.tToORpi
  connType := 1
  oToTConnParams := ForwardOpenRequest.calcConnectionParams c.oToTBufferSize false priorityScheduled typeP2P false
  tToOConnParams := ForwardOpenRequest.calcConnectionParams c.tToOBufferSize true priorityScheduled typeP2P false
  path := c.path

/-- `createForwardCloseRequest` (src/connection.cpp:86-101). -/
def createForwardCloseRequest (c : Connection) : ForwardCloseRequest where
  originatorVendorId := c.originatorVendorId
  originatorSn := c.originatorSn
  connectionSn := c.connectionSn
  timeoutTickSize := c.timeoutTickSize
  timeoutTicks := c.timeoutTicks
  path := Path.mk2 0x02 0x01

/-- `verifyForwardOpenResult` (src/connection.cpp:103-126): the verdict and the updated connection. -/
def verifyForwardOpenResult (c : Connection) (result : ForwardOpenSuccess) : Bool × Connection :=
  if result.connectionSn ≠ c.connectionSn ∨ result.originatorVendorId ≠ c.originatorVendorId
      ∨ result.originatorSn ≠ c.originatorSn then
    (false, c)
  else
    let c := if result.oToTConnectionId ≠ c.oToTConnectionId then
        { c with oToTConnectionId := result.oToTConnectionId } else c
    let c := if result.tToOConnectionId ≠ c.tToOConnectionId then
        { c with tToOConnectionId := result.tToOConnectionId } else c
    (true, { c with oToTApi := result.oToTApi, tToOApi := result.tToOApi })

/-- `verifyForwardCloseResult` (src/connection.cpp:128-137). -/
def verifyForwardCloseResult (c : Connection) (result : ForwardCloseSuccess) : Bool :=
  result.connectionSn = c.connectionSn ∧ result.originatorVendorId = c.originatorVendorId
    ∧ result.originatorSn = c.originatorSn

end Connection
end Eip
