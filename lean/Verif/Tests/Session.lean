import Verif.Tests.Wire
import Verif.Model.Session
/-
test/session_test.cpp evaluated on the model. As in `Verif.Tests.Wire` these are tests of the model, not proofs.
The two `TestSocket`s of the file never fail; a receive delivers what the test has put into `rx_buffer`.
-/
namespace Eip.Tests

set_option synthInstance.maxSize 1000
set_option synthInstance.maxHeartbeats 200000

/-- Sockets that never fail; the receive that is socket call number `k` delivers the bytes listed for `k`. -/
def scripted (l : List (Nat × Bytes)) : Nat → Answer := fun k => ⟨false, (l.lookup k).getD [], 4096⟩

/-- The session of the fixture (test/session_test.cpp:49-65), with the numbers the last test but one gives it. -/
def fixture (l : List (Nat × Bytes)) : World :=
  { s := Session.new 0x0195 0x00004321 0x6789 0x00020003 (List.replicate 4096 0xCC), env := scripted l, clock := 0, trace := [] }

/-- Messages sent on a socket, in order. -/
def sentOn (s : Sock) (w : World) : List Bytes :=
  w.trace.filterMap (fun e => match e with | .sent t b true => if t = s then some b else none | _ => none)

/-- `is_open` of a socket. -/
def isOpen (s : Sock) (w : World) : Bool :=
  w.trace.foldl (fun b e => match e with
    | .opened t _ _ true => if t = s then true else b
    | .closed t true => if t = s then false else b
    | _ => b) false

/-- `hostname` and `port` of a socket. -/
def openedTo (s : Sock) (w : World) : String × String :=
  w.trace.foldl (fun b e => match e with
    | .opened t h p true => if t = s then (h, p) else b
    | _ => b) ("", "")

/-- `session.open("example_host")`, with the default ports of session.h:83. -/
def opening : Prog World Unit := Session.open "example_host" "44818" "2222"

/-- The registration reply of test_open and of all tests that follow. -/
def regResp : Bytes := [0x65, 0x00, 4, 0, 0xEF, 0xBE, 0xAD, 0xDE, 0, 0, 0, 0, 0, 0, 0, 0, 0, 0, 0, 0, 0, 0, 0, 0, 1, 0, 0, 0]

/-- The world after opening with a reply. -/
def opened (reply : Bytes) : Res Unit × World := opening (fixture [(3, reply)])

/-- test_open, first half -/
example : (opened regResp).1 = .ok () ∧ isOpen .tcp (opened regResp).2 = true ∧
    openedTo .tcp (opened regResp).2 = ("example_host", "44818") ∧
    sentOn .tcp (opened regResp).2 = [[0x65, 0, 0x04, 0, 0, 0, 0, 0, 0, 0, 0, 0, 0, 0, 0, 0, 0, 0, 0, 0, 0, 0, 0, 0, 1, 0, 0, 0]] ∧
    (opened regResp).2.s.sessionId = 0xDEADBEEF := by decide +kernel

/-- test_open, second half -/
example : (Session.close (opened regResp).2).1 = .ok () ∧ isOpen .tcp (Session.close (opened regResp).2).2 = false ∧
    (Session.close (opened regResp).2).2.s.sessionId = 0 ∧
    (sentOn .tcp (Session.close (opened regResp).2).2).getLast? = some
      [0x66, 0, 0, 0, 0xEF, 0xBE, 0xAD, 0xDE, 0, 0, 0, 0, 0, 0, 0, 0, 0, 0, 0, 0, 0, 0, 0, 0] := by decide +kernel

/-- The expectations of a test in which opening fails. -/
def refused (reply : Bytes) : Bool :=
  threw .runtimeError (opened reply).1 && !isOpen .tcp (opened reply).2 &&
    openedTo .tcp (opened reply).2 == ("example_host", "44818") && (opened reply).2.s.sessionId == 0

/-- test_open_wrong_command_id -/
example : refused [0, 0, 0, 0, 0, 0, 0, 0, 0, 0, 0, 0, 0, 0, 0, 0, 0, 0, 0, 0, 0, 0, 0, 0] = true := by decide +kernel
/-- test_open_zero_session -/
example : refused [0x65, 0, 0, 0, 0, 0, 0, 0, 0, 0, 0, 0, 0, 0, 0, 0, 0, 0, 0, 0, 0, 0, 0, 0] = true := by decide +kernel
/-- test_open_short_packet -/
example : refused [0x65, 0, 1, 0, 1, 0, 0, 0, 0, 0, 0, 0, 0, 0, 0, 0, 0, 0, 0, 0, 0, 0, 0, 0] = true := by decide +kernel
/-- test_open_short_data -/
example : (opened [0x65, 0, 2, 0, 1, 0, 0, 0, 0, 0, 0, 0, 0, 0, 0, 0, 0, 0, 0, 0, 0, 0, 0, 0, 1, 0]).1 = .ok () ∧
    isOpen .tcp (opened [0x65, 0, 2, 0, 1, 0, 0, 0, 0, 0, 0, 0, 0, 0, 0, 0, 0, 0, 0, 0, 0, 0, 0, 0, 1, 0]).2 = true ∧
    (opened [0x65, 0, 2, 0, 1, 0, 0, 0, 0, 0, 0, 0, 0, 0, 0, 0, 0, 0, 0, 0, 0, 0, 0, 0, 1, 0]).2.s.sessionId = 1 := by
  decide +kernel
/-- The reply of test_open_extra_data. -/
def extraResp : Bytes := [0x65, 0x00, 8, 0, 0xEF, 0xBE, 0xAD, 0xDE, 0xFF, 0xFF, 0xFF, 0xFF,
  0xFF, 0xFF, 0xFF, 0xFF, 0xFF, 0xFF, 0xFF, 0xFF, 0xFF, 0xFF, 0xFF, 0xFF, 1, 0, 0xFF, 0xFF, 0xFF, 0xFF, 0xFF, 0xFF]
/-- test_open_extra_data -/
example : (opened extraResp).1 = .ok () ∧ isOpen .tcp (opened extraResp).2 = true ∧
    (opened extraResp).2.s.sessionId = 0xDEADBEEF := by decide +kernel
/-- test_open_wrong_version -/
example : refused [0x65, 0x00, 4, 0, 0xEF, 0xBE, 0xAD, 0xDE, 0, 0, 0, 0, 0, 0, 0, 0, 0, 0, 0, 0, 0, 0, 0, 0, 2, 1, 0, 0] = true := by
  decide +kernel

/-! ### Commands -/

/-- An open session that will get this reply to its next command. -/
def ready (reply : Bytes) : World := (opening (fixture [(3, regResp), (5, reply)])).2

/-- The reply of test_get_single_attribute. -/
def getResp : Bytes := [0x6F, 0x00, 24, 0, 0xEF, 0xBE, 0xAD, 0xDE, 0, 0, 0, 0, 0, 0, 0, 0, 0, 0, 0, 0, 0, 0, 0, 0,
  0, 0, 0, 0, 0, 0, 2, 0, 0, 0, 0, 0, 0xB2, 0x00, 0x08, 0x00, 0x8E, 0, 0x00, 0, 0xEF, 0xCD, 0xAB, 0xAA]
/-- The call of test_get_single_attribute. -/
def getCall : Res UInt32 × World := Session.getSingleAttribute .u32 0x75 1 3 0 (ready getResp)
/-- test_get_single_attribute -/
example : getCall.1 = .ok 0xAAABCDEF ∧ (sentOn .tcp getCall.2).drop 1 =
    [[0x6F, 0, 24, 0, 0xEF, 0xBE, 0xAD, 0xDE, 0, 0, 0, 0, 0, 0, 0, 0, 0, 0, 0, 0, 0, 0, 0, 0, 0, 0, 0, 0, 0, 0, 2, 0, 0, 0, 0, 0,
      0xB2, 0x00, 8, 0, 0xE, 0x03, 0x20, 0x75, 0x24, 0x01, 0x30, 0x03]] := by decide +kernel

/-- The reply of test_set_single_attribute. -/
def setResp : Bytes := [0x6F, 0x00, 20, 0, 0xEF, 0xBE, 0xAD, 0xDE, 0, 0, 0, 0, 0, 0, 0, 0, 0, 0, 0, 0, 0, 0, 0, 0,
  0, 0, 0, 0, 0, 0, 2, 0, 0, 0, 0, 0, 0xB2, 0x00, 0x04, 0x00, 0x90, 0, 0x00, 0]
/-- The call of test_set_single_attribute. -/
def setCall : Res Unit × World := Session.setSingleAttribute .u16 0x73 1 4 1 (ready setResp)
/-- test_set_single_attribute -/
example : setCall.1 = .ok () ∧ (sentOn .tcp setCall.2).drop 1 =
    [[0x6F, 0, 26, 0, 0xEF, 0xBE, 0xAD, 0xDE, 0, 0, 0, 0, 0, 0, 0, 0, 0, 0, 0, 0, 0, 0, 0, 0, 0, 0, 0, 0, 0, 0, 2, 0, 0, 0, 0, 0,
      0xB2, 0x00, 10, 0, 0x10, 0x03, 0x20, 0x73, 0x24, 0x01, 0x30, 0x04, 0x01, 0x00]] := by decide +kernel

/-! ### test_create_connection -/

/-- The forward open reply: its item is announced shorter than it is, and extra items follow. -/
def openResp : Bytes := [0x6F, 0x00, 0x56, 0, 0xEF, 0xBE, 0xAD, 0xDE, 0, 0, 0, 0, 0, 0, 0, 0, 0, 0, 0, 0, 0, 0, 0, 0,
  0, 0, 0, 0, 0, 0, 2, 0, 0, 0, 0, 0, 0xB2, 0x00, 0x1E, 0x00, 0xDB, 0, 0x00, 0,
  0x02, 0x00, 0x0C, 0x78, 0x04, 0x00, 0x02, 0x00, 0x89, 0x67, 0x95, 0x01, 0x21, 0x43, 0x00, 0x00,
  0xD0, 0x81, 0x17, 0x00, 0xD8, 0x5C, 0x02, 0x00, 0x00, 0x00, 0x00, 0x80, 0x10, 0x00, 0x00, 0x02,
  0x08, 0xAE, 0xC0, 0xA8, 0x01, 0x01, 0x00, 0x00, 0x00, 0x00, 0x00, 0x00, 0x00, 0x00, 0x01, 0x80,
  0x10, 0x00, 0x00, 0x02, 0x08, 0xAE, 0xC0, 0xA8, 0x01, 0x07, 0x00, 0x00, 0x00, 0x00, 0x00, 0x00, 0x00, 0x00]
/-- The forward close reply. -/
def closeResp : Bytes := [0x6F, 0x00, 0x1E, 0x00, 0xEF, 0xBE, 0xAD, 0xDE, 0, 0, 0, 0, 0, 0, 0, 0, 0, 0, 0, 0, 0, 0, 0, 0,
  0, 0, 0, 0, 0, 0, 0x02, 0x00, 0x00, 0x00, 0x00, 0x00, 0xB2, 0x00, 0x0E, 0x00,
  0xCE, 0x00, 0x00, 0x00, 0x89, 0x67, 0x95, 0x01, 0x21, 0x43, 0x00, 0x00, 0x00, 0x00]
/-- Opening the connection. -/
def createCall : Res Int × World :=
  Session.createConnection ⟨0x71, 0x006E, 0x00177FA0⟩ ⟨0x66, 0x0584, 0x00013070⟩
    (opening (fixture [(3, regResp), (5, openResp), (7, closeResp)])).2
/-- The length announced in the file. -/
example : openResp.length = 0x56 + 24 := by decide
/-- test_create_connection, the request -/
example : createCall.1 = .ok 0 ∧ (sentOn .tcp createCall.2).drop 1 =
    [[0x6F, 0, 0x46, 0, 0xEF, 0xBE, 0xAD, 0xDE, 0, 0, 0, 0, 0, 0, 0, 0, 0, 0, 0, 0, 0, 0, 0, 0, 0, 0, 0, 0, 0, 0, 2, 0, 0, 0, 0, 0,
      0xB2, 0x00, 0x36, 0, 0x5B, 0x02, 0x20, 0x06, 0x24, 0x01,
      0x06, 0x50, 0x03, 0x00, 0x02, 0x00, 0x04, 0x00, 0x02, 0x00, 0x89, 0x67, 0x95, 0x01, 0x21, 0x43, 0x00, 0x00,
      0x00, 0x00, 0x00, 0x00, 0xA0, 0x7F, 0x17, 0x00, 0x6E, 0x00, 0x00, 0x48, 0x70, 0x30, 0x01, 0x00, 0x84, 0x05, 0x00, 0x4A,
      0x01, 0x04, 0x20, 0x04, 0x24, 0x01, 0x2C, 0x71, 0x2C, 0x66]] := by decide +kernel
/-- test_create_connection, the connection -/
example : createCall.2.s.connections =
    [{ originatorVendorId := 0x0195, originatorSn := 0x00004321, connectionSn := 0x6789, oToTConnectionId := 0x780C0002,
       tToOConnectionId := 0x00020004, timeoutTickSize := 6, timeoutTicks := 80, timeoutMultiplyer := 0,
       oToTRpi := 0x00177FA0, tToORpi := 0x00013070, oToTApi := 0x001781D0, tToOApi := 0x00025CD8,
       oToTBufferSize := 0x006E, tToOBufferSize := 0x0584, path := connectionPath }] := by decide +kernel
/-- Closing the connection. -/
def closeCall : Res Unit × World := Session.closeConnection 0 createCall.2
/-- test_create_connection, closing -/
example : closeCall.1 = .ok () ∧ closeCall.2.s.connections = [] ∧ (sentOn .tcp closeCall.2).drop 2 =
    [[0x6F, 0x00, 0x26, 0x00, 0xEF, 0xBE, 0xAD, 0xDE, 0, 0, 0, 0, 0, 0, 0, 0, 0, 0, 0, 0, 0, 0, 0, 0,
      0x00, 0x00, 0x00, 0x00, 0x00, 0x00, 0x02, 0x00, 0x00, 0x00, 0x00, 0x00, 0xB2, 0x00, 0x16, 0x00,
      0x4E, 0x02, 0x20, 0x06, 0x24, 0x01, 0x06, 0x50, 0x89, 0x67, 0x95, 0x01, 0x21, 0x43, 0x00, 0x00,
      0x02, 0x00, 0x20, 0x02, 0x24, 0x01]] := by decide +kernel

/-! ### test_receive_io_packet -/

/-- The datagram. -/
def ioPacket : Bytes := [0x02, 0x00, 0x02, 0x80, 0x08, 0x00, 0x04, 0x00, 0x02, 0x00, 0x15, 0x00, 0x00, 0x00, 0xB1, 0x00,
  0x62, 0x00, 0xA1, 0x00, 0x76, 0x53, 0x04, 0x00, 0x64, 0x96, 0x00, 0x00, 0x18, 0xBE, 0x97, 0x8A,
  0x19, 0xA7, 0x00, 0x00, 0x03, 0x00, 0x07, 0x00, 0x00, 0x00, 0x00, 0x00, 0x00, 0x00, 0x01, 0x00,
  0x00, 0x00, 0x08, 0x07, 0x88, 0x33, 0xAE, 0x31, 0x00, 0x00, 0x00, 0x00, 0x00, 0x00, 0x00, 0x00,
  0x00, 0x00, 0x00, 0x00, 0x01, 0x00, 0x02, 0x00, 0x00, 0x00, 0x14, 0x00, 0x52, 0x08, 0x42, 0x08,
  0x52, 0x08, 0x40, 0x08, 0x52, 0x08, 0x40, 0x08, 0x53, 0x08, 0x58, 0x08, 0x52, 0x08, 0x40, 0x08,
  0x58, 0x08, 0x58, 0x08, 0x58, 0x08, 0x5E, 0x08, 0x67, 0x08, 0x5D, 0x08, 0x67, 0x08, 0x5E, 0x08,
  0x5E, 0x08, 0x6F, 0x08]
/-- The items of the packet that is received: types, lengths, raw data. -/
def ioItems : List (UInt16 × UInt16 × Option Bytes) :=
  match Session.receiveIOPacket (fixture [(0, ioPacket)]) with
  | (.ok p, _) => p.items.map (fun i => (i.itemType, i.getDataLength, raw i.data))
  | _ => []
/-- test_receive_io_packet, the items -/
example : ioItems = [(0x8002, 8, some ((ioPacket.drop 6).take 8)), (0x00B1, 0x0062, some (ioPacket.drop 18))] := by
  decide +kernel
/-- The address taken from the first item. -/
def ioAddress : Option (Res Unit × SequencedAddressItem) :=
  match Session.receiveIOPacket (fixture [(0, ioPacket)]) with
  | (.ok p, _) => p.items.head?.map (fun i => i.getDataAs SequencedAddressItem.cls { connectionId := 0, sequenceNum := 0 })
  | _ => none
/-- test_receive_io_packet, the address -/
example : ioAddress = some (.ok (), { connectionId := 0x00020004, sequenceNum := 0x00000015 }) := by decide +kernel

end Eip.Tests
