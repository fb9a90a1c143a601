import Verif.Model.Messages
import Verif.Model.Items
import Verif.Model.TestSocket
/-
The project's own unit tests (test/*.cpp, except test/session_test.cpp), evaluated on the model. These are tests of the
model, not proofs of properties: they show that on the inputs the authors wrote down the model does what the authors
expect of the code. Each `example` names the test it is taken from. Expectations about addresses (that a buffer is not
copied) are left out; memory is modelled in `Verif.Model.Refs`.
-/
namespace Eip.Tests

/-- Serialize into an array of `n` bytes of unknown contents: outcome, bytes counted by the writer, the array. -/
def into (n : Nat) (p : Prog Writer Unit) : Res Unit × Nat × Bytes :=
  match p (.buffer (BufferWriter.new (List.replicate n 0xCC))) with
  | (r, .buffer w) => (r, w.getByteCount, w.memory)
  | (r, .stream w) => (r, w.getByteCount, [])

/-- Serialize into a stream. -/
def stream (p : Prog Writer Unit) : Res Unit × Nat × Bytes :=
  match p (.stream .new) with
  | (r, .stream w) => (r, w.getByteCount, w.out)
  | (r, .buffer w) => (r, w.getByteCount, [])

/-- The outcome was an exception of this class. -/
def threw {α : Type} (k : ExnKind) : Res α → Bool
  | .throw e => e.kind.isA k
  | _ => false

/-- The outcome was a normal return. -/
def returned {α : Type} : Res α → Bool
  | .ok _ => true
  | _ => false

/-- Deserialize from an array: outcome, bytes counted by the reader, the object. -/
def outOf {δ : Type} (bytes : Bytes) (d : δ) (p : Prog (δ × Reader) Unit) : Res Unit × Nat × δ :=
  match p (d, .buffer (BufferReader.new bytes)) with
  | (r, (d', rd)) => (r, rd.getByteCount, d')

/-- The bytes of a raw buffer behind a pointer; `none` also for a null pointer. -/
def raw (o : Option Obj) : Option Bytes := o.bind (·.asBuffer)

/-- `buffer("abcdefg")`: with the terminating zero. -/
def abcdefg : Bytes := [97, 98, 99, 100, 101, 102, 103, 0]

/-! ### test/encap_header_test.cpp -/

/-- test_default_values -/
example : (EncapHeader.new) = ⟨0, 0, 0, 0, (0, 0), 0⟩ := by decide
/-- test_constructor -/
example : (EncapHeader.new 0x55AA 0x87654321) =
    { command := 0x55AA, length := 0, sessionHandle := 0x87654321, status := 0, context := (0, 0), options := 0 } := by decide
/-- test_serialization_simple -/
example : into 24 (EncapHeader.new 0x55AA 0x87654321).serialize = (.ok (), 24,
    [0xAA, 0x55, 0, 0x00, 0x21, 0x43, 0x65, 0x87, 0, 0, 0, 0, 0, 0, 0, 0, 0, 0, 0, 0, 0, 0, 0, 0]) := by decide +kernel
/-- The header of test_serialization_complex and test_deserialization_complex. -/
def complexHeader : EncapHeader :=
  { command := 0x55AA, length := 8, sessionHandle := 0x87654321, status := 0xFEDCBA98,
    context := (0x23456789, 0xABCDEF01), options := 0xDEADBEEF }
/-- Its bytes. -/
def complexBytes : Bytes := [0xAA, 0x55, 0x08, 0x00, 0x21, 0x43, 0x65, 0x87, 0x98, 0xBA, 0xDC, 0xFE, 0x89, 0x67, 0x45, 0x23,
  0x01, 0xEF, 0xCD, 0xAB, 0xEF, 0xBE, 0xAD, 0xDE]
/-- test_serialization_complex -/
example : into 24 complexHeader.serialize = (.ok (), 24, complexBytes) := by decide +kernel
/-- test_deserialization_simple -/
example : outOf [0xAA, 0x55, 0, 0x00, 0x21, 0x43, 0x65, 0x87, 0, 0, 0, 0, 0, 0, 0, 0, 0, 0, 0, 0, 0, 0, 0, 0] EncapHeader.new
    EncapHeader.deserialize = (.ok (), 24, EncapHeader.new 0x55AA 0x87654321) := by decide +kernel
/-- test_deserialization_complex -/
example : outOf (complexBytes ++ abcdefg) EncapHeader.new EncapHeader.deserialize = (.ok (), 24, complexHeader) := by
  decide +kernel

/-! ### test/encap_packet_test.cpp -/

/-- test_default_values -/
example : EncapPacket.new.header = EncapHeader.new ∧ EncapPacket.new.getLength = 24 := by decide
/-- test_constructor -/
example : (EncapPacket.new 0x55AA 0x87654321).header = EncapHeader.new 0x55AA 0x87654321 ∧
    (EncapPacket.new 0x55AA 0x87654321).getLength = 24 := by decide
/-- The packet of test_constructor_with_data. -/
def withData : EncapPacket := .withPayload 0x55AA 0x87654321 (some (SerializableBuffer.obj ⟨abcdefg⟩))
/-- test_constructor_with_data -/
example : withData.header = { EncapHeader.new 0x55AA 0x87654321 with length := 8 } ∧ withData.getLength = 32 ∧
    raw withData.payload = some abcdefg := by decide +kernel
/-- test_serialization_simple -/
example : into 24 (EncapPacket.new 0x55AA 0x87654321).serialize = (.ok (), 24,
    [0xAA, 0x55, 0, 0x00, 0x21, 0x43, 0x65, 0x87, 0, 0, 0, 0, 0, 0, 0, 0, 0, 0, 0, 0, 0, 0, 0, 0]) := by decide +kernel
/-- test_serialization_simple_short_buffer -/
example : threw .lengthError (into 20 (EncapPacket.new 0x55AA 0x87654321).serialize).1 = true := by decide +kernel
/-- test_serialization_complex -/
example : into 32 (EncapPacket.setPayload ⟨{ complexHeader with length := 0 }, none⟩
    (some (SerializableBuffer.obj ⟨abcdefg⟩))).serialize = (.ok (), 32, complexBytes ++ abcdefg) := by decide +kernel
/-- test_serialization_complex_short_buffer -/
example : threw .lengthError (into 30 (EncapPacket.new.setPayload
    (some (SerializableBuffer.obj ⟨abcdefg⟩))).serialize).1 = true := by decide +kernel
/-- test_deserialization_simple -/
example : (outOf [0xAA, 0x55, 0, 0x00, 0x21, 0x43, 0x65, 0x87, 0, 0, 0, 0, 0, 0, 0, 0, 0, 0, 0, 0, 0, 0, 0, 0] EncapPacket.new
    EncapPacket.deserialize).1 = .ok () ∧
    (outOf [0xAA, 0x55, 0, 0x00, 0x21, 0x43, 0x65, 0x87, 0, 0, 0, 0, 0, 0, 0, 0, 0, 0, 0, 0, 0, 0, 0, 0] EncapPacket.new
    EncapPacket.deserialize).2.1 = 24 ∧
    (outOf [0xAA, 0x55, 0, 0x00, 0x21, 0x43, 0x65, 0x87, 0, 0, 0, 0, 0, 0, 0, 0, 0, 0, 0, 0, 0, 0, 0, 0] EncapPacket.new
    EncapPacket.deserialize).2.2.header = EncapHeader.new 0x55AA 0x87654321 := by decide +kernel
/-- test_deserialization_simple_short_buffer -/
example : threw .lengthError (outOf [0xAA, 0x55, 0, 0x00, 0x21, 0x43, 0x65, 0x87, 0, 0, 0, 0, 0, 0, 0, 0, 0, 0, 0, 0, 0, 0, 0]
    EncapPacket.new EncapPacket.deserialize).1 = true := by decide +kernel
/-- test_deserialization_complex -/
example : (outOf (complexBytes ++ abcdefg) EncapPacket.new EncapPacket.deserialize).1 = .ok () ∧
    (outOf (complexBytes ++ abcdefg) EncapPacket.new EncapPacket.deserialize).2.1 = 32 ∧
    (outOf (complexBytes ++ abcdefg) EncapPacket.new EncapPacket.deserialize).2.2.header = complexHeader ∧
    raw (outOf (complexBytes ++ abcdefg) EncapPacket.new EncapPacket.deserialize).2.2.payload = some abcdefg := by
  decide +kernel
/-- test_deserialization_complex_short_buffer -/
example : threw .lengthError (outOf (complexBytes ++ abcdefg.take 7) EncapPacket.new EncapPacket.deserialize).1 = true := by
  decide +kernel
/-- test_get_payload_as_sb -/
example : (withData.getPayloadAs SerializableBuffer.cls .empty).1 = .ok () ∧
    (withData.getPayloadAs SerializableBuffer.cls .empty).2.data = abcdefg := by decide +kernel
/-- `SerializableDummy` (test/encap_packet_test.cpp:44-88): reads and writes a fixed array; not a raw buffer. -/
def dummyCls : Class Bytes where
  getLength := List.length
  deserialize := do
    let d ← getObj
    let b ← onReader (Reader.readInto d)
    modifyObj (fun _ => b)
  deserializeLen := delegateLen
  assignBuffer := none
/-- `SerializableDummy` as a source. -/
def dummy (b : Bytes) : Obj := ⟨b.length, Writer.writeBuffer b, none⟩
/-- test_get_payload_as_dummy -/
example : withData.getPayloadAs dummyCls (List.replicate 8 0xCC) = (.ok (), abcdefg) := by decide +kernel
/-- test_get_payload_from_dummy -/
example : (EncapPacket.withPayload 0x55AA 0x87654321 (some (dummy abcdefg))).getPayloadAs dummyCls (List.replicate 8 0xCC) =
    (.ok (), abcdefg) := by decide +kernel
/-- test_get_payload_from_dummy_to_sb_throws_logic_error -/
example : threw .logicError ((EncapPacket.withPayload 0x55AA 0x87654321 (some (dummy abcdefg))).getPayloadAs
    SerializableBuffer.cls .empty).1 = true := by decide +kernel

/-! ### test/cpf_item_test.cpp -/

/-- test_default_values -/
example : CPFItem.null.itemType = 0 ∧ CPFItem.null.getDataLength = 0 ∧ CPFItem.null.getLength = 4 ∧
    CPFItem.null.data.isNone = true := by decide
/-- test_simple_value -/
example : (⟨0x55AA, some (SerializableBuffer.obj ⟨[97, 98, 99, 100, 101, 0]⟩)⟩ : CPFItem).getDataLength = 6 ∧
    (⟨0x55AA, some (SerializableBuffer.obj ⟨[97, 98, 99, 100, 101, 0]⟩)⟩ : CPFItem).getLength = 10 := by decide +kernel
/-- The item of the next two tests, on a little-endian host. -/
def intItem : CPFItem := ⟨0xAA55, some (SerializableBuffer.obj ⟨[0x89, 0x67, 0x45, 0x23, 0x01, 0xEF, 0xCD, 0xAB]⟩)⟩
/-- Its bytes. -/
def intItemBytes : Bytes := [0x55, 0xAA, 0x08, 0x00, 0x89, 0x67, 0x45, 0x23, 0x01, 0xEF, 0xCD, 0xAB]
/-- test_serialize_int -/
example : intItem.getLength = 12 ∧ into 12 intItem.serialize = (.ok (), 12, intItemBytes) := by decide +kernel
/-- test_serialize_short_buffer -/
example : threw .lengthError (into 11 intItem.serialize).1 = true := by decide +kernel
/-- test_deserialize_int -/
example : (outOf intItemBytes .null CPFItem.deserialize).1 = .ok () ∧
    (outOf intItemBytes .null CPFItem.deserialize).2.1 = 12 ∧
    (outOf intItemBytes .null CPFItem.deserialize).2.2.itemType = 0xAA55 ∧
    (outOf intItemBytes .null CPFItem.deserialize).2.2.getDataLength = 8 ∧
    raw (outOf intItemBytes .null CPFItem.deserialize).2.2.data = some (intItemBytes.drop 4) := by decide +kernel
/-- test_deserialize_short_throws_exception -/
example : threw .lengthError (outOf [0, 0] .null CPFItem.deserialize).1 = true := by decide +kernel
/-- test_deserialize_short2_throws_exception -/
example : threw .lengthError (outOf (intItemBytes.take 11) .null CPFItem.deserialize).1 = true := by decide +kernel

/-! ### test/cpf_packet_test.cpp -/

/-- test_default_values -/
example : (⟨[]⟩ : CPFPacket).getItemCount = 0 ∧ into 2 (⟨[]⟩ : CPFPacket).serialize = (.ok (), 2, [0, 0]) := by decide +kernel
/-- The item with `0xDEADBEEF`. -/
def beef : CPFItem := ⟨0x55AA, some (SerializableBuffer.obj ⟨[0xEF, 0xBE, 0xAD, 0xDE]⟩)⟩
/-- test_serialize_one_item -/
example : (⟨[beef]⟩ : CPFPacket).getItemCount = 1 ∧ into 10 (⟨[beef]⟩ : CPFPacket).serialize = (.ok (), 10,
    [0x01, 0x00, 0xAA, 0x55, 0x04, 0x00, 0xEF, 0xBE, 0xAD, 0xDE]) := by decide +kernel
/-- test_serialize_two_items -/
example : (⟨[.null, beef]⟩ : CPFPacket).getItemCount = 2 ∧ into 14 (⟨[.null, beef]⟩ : CPFPacket).serialize = (.ok (), 14,
    [0x02, 0x00, 0x00, 0x00, 0x00, 0x00, 0xAA, 0x55, 0x04, 0x00, 0xEF, 0xBE, 0xAD, 0xDE]) := by decide +kernel

/-! ### test/path_test.cpp -/

/-- test_attribute -/
example : ((((Path.mk0).addLogicalClass 0x73).addLogicalInstance 1).addLogicalAttribute 4).getLength = 7 ∧
    into 7 ((((Path.mk0).addLogicalClass 0x73).addLogicalInstance 1).addLogicalAttribute 4).serialize =
      (.ok (), 7, [3, 0x20, 0x73, 0x24, 1, 0x30, 4]) := by decide +kernel
/-- The path of test_connection and of the forward open and close tests. -/
def connectionPath : Path :=
  ((((Path.mk0).addLogicalClass 4).addLogicalInstance 1).addLogicalConnectionPoint 0x71).addLogicalConnectionPoint 0x66
/-- test_connection -/
example : connectionPath.getLength = 9 ∧ into 9 connectionPath.serialize =
    (.ok (), 9, [4, 0x20, 4, 0x24, 1, 0x2C, 0x71, 0x2C, 0x66]) := by decide +kernel

/-! ### test/forward_close_request_test.cpp -/

/-- The request of test_serialize. -/
def closeRequest : ForwardCloseRequest :=
  { timeoutTickSize := 6, timeoutTicks := 40, connectionSn := 0xAA55, originatorVendorId := 0xCBA0,
    originatorSn := 0x12345678, path := connectionPath }
/-- test_serialize -/
example : closeRequest.getLength = 20 ∧ into 20 closeRequest.serialize = (.ok (), 20,
    [6, 40, 0x55, 0xAA, 0xA0, 0xCB, 0x78, 0x56, 0x34, 0x12, 4, 0, 0x20, 4, 0x24, 1, 0x2C, 0x71, 0x2C, 0x66]) := by
  decide +kernel

/-! ### test/forward_close_success_test.cpp -/

/-- An object of unknown contents. -/
def someCloseSuccess : ForwardCloseSuccess := ⟨0xCCCC, 0xCCCC, 0xCCCCCCCC, none⟩
/-- The reply without data. -/
def closeReply : Bytes := [0x55, 0xAA, 0xA9, 0xCB, 0x12, 0x34, 0x55, 0xAA, 0, 0xFF]
/-- test_deserialize_no_data -/
example : someCloseSuccess.getLength = 10 ∧
    (outOf closeReply someCloseSuccess (ForwardCloseSuccess.cls.runLen 10)).1 = .ok () ∧
    (outOf closeReply someCloseSuccess (ForwardCloseSuccess.cls.runLen 10)).2.1 = 10 ∧
    (outOf closeReply someCloseSuccess (ForwardCloseSuccess.cls.runLen 10)).2.2.connectionSn = 0xAA55 ∧
    (outOf closeReply someCloseSuccess (ForwardCloseSuccess.cls.runLen 10)).2.2.originatorVendorId = 0xCBA9 ∧
    (outOf closeReply someCloseSuccess (ForwardCloseSuccess.cls.runLen 10)).2.2.originatorSn = 0xAA553412 ∧
    (outOf closeReply someCloseSuccess (ForwardCloseSuccess.cls.runLen 10)).2.2.responseData.isNone = true := by
  decide +kernel
/-- The reply with data. -/
def closeReplyData : Bytes := [0x55, 0xAA, 0xA9, 0xCB, 0x12, 0x34, 0x55, 0xAA, 4, 0xFF,
  0x12, 0x34, 0x56, 0x78, 0x9A, 0xBC, 0xDE, 0xEF]
/-- test_deserialize_with_data -/
example :
    (outOf closeReplyData someCloseSuccess (ForwardCloseSuccess.cls.runLen 18)).1 = .ok () ∧
    (outOf closeReplyData someCloseSuccess (ForwardCloseSuccess.cls.runLen 18)).2.1 = 18 ∧
    (outOf closeReplyData someCloseSuccess (ForwardCloseSuccess.cls.runLen 18)).2.2.connectionSn = 0xAA55 ∧
    (outOf closeReplyData someCloseSuccess (ForwardCloseSuccess.cls.runLen 18)).2.2.originatorVendorId = 0xCBA9 ∧
    (outOf closeReplyData someCloseSuccess (ForwardCloseSuccess.cls.runLen 18)).2.2.originatorSn = 0xAA553412 ∧
    raw (outOf closeReplyData someCloseSuccess (ForwardCloseSuccess.cls.runLen 18)).2.2.responseData =
      some (closeReplyData.drop 10) := by decide +kernel

/-! ### test/forward_open_request_test.cpp -/

/-- test_calc_net_params -/
example : ForwardOpenRequest.calcConnectionParams 0 false 0 0 false = 0 ∧
    ForwardOpenRequest.calcConnectionParams 0xFFFF false 0 0 false = 0x00007FFF ∧
    ForwardOpenRequest.calcConnectionParams 0 true 0 0 false = 0x02000000 ∧
    ForwardOpenRequest.calcConnectionParams 0 false 0xFF 0 false = 0x0C000000 ∧
    ForwardOpenRequest.calcConnectionParams 0 false 0 0xFF false = 0x60000000 ∧
    ForwardOpenRequest.calcConnectionParams 0x5A5A true 3 2 true = 0xCE005A5A := by decide
/-- The request of test_serialize. -/
def openRequest : ForwardOpenRequest :=
  { timeoutTickSize := 6, timeoutTicks := 40, oToTConnectionId := 0xDEADBEEF, tToOConnectionId := 0xFEAD1234,
    connectionSn := 0xAA55, originatorVendorId := 0xCBA0, originatorSn := 0x12345678, timeoutMultiplyer := 3,
    oToTRpi := 40000, tToORpi := 500000,
    oToTConnParams := ForwardOpenRequest.calcConnectionParams 0x55AA false 2 2 false,
    tToOConnParams := ForwardOpenRequest.calcConnectionParams 0xA5A5 true 2 2 false,
    connType := 1, path := connectionPath }
/-- test_serialize -/
example : openRequest.getLength = 48 ∧ into 48 openRequest.serialize = (.ok (), 48,
    [6, 40, 0xEF, 0xBE, 0xAD, 0xDE, 0x34, 0x12, 0xAD, 0xFE, 0x55, 0xAA, 0xA0, 0xCB, 0x78, 0x56, 0x34, 0x12, 3, 0, 0, 0,
     0x40, 0x9C, 0, 0, 0xAA, 0x55, 0x00, 0x48, 0x20, 0xA1, 0x07, 0x00, 0xA5, 0x25, 0x00, 0x4A, 1,
     4, 0x20, 4, 0x24, 1, 0x2C, 0x71, 0x2C, 0x66]) := by decide +kernel

/-! ### test/forward_open_success_test.cpp -/

/-- An object of unknown contents. -/
def someOpenSuccess : ForwardOpenSuccess :=
  ⟨0xCCCCCCCC, 0xCCCCCCCC, 0xCCCC, 0xCCCC, 0xCCCCCCCC, 0xCCCCCCCC, 0xCCCCCCCC, none⟩
/-- The reply up to the size of the data. -/
def openReplyHead : Bytes := [0xAD, 0xDE, 0xEF, 0xBE, 0xEF, 0xCD, 0xAB, 0xA9, 0x55, 0xAA, 0xA9, 0xCB, 0x12, 0x34, 0x55, 0xAA,
  0x20, 0xA1, 0x07, 0x00, 0x40, 0x9C, 0x00, 0x00]
/-- The expectations of both tests about the fields. -/
def openFields (d : ForwardOpenSuccess) : Bool :=
  d.oToTConnectionId = 0xBEEFDEAD ∧ d.tToOConnectionId = 0xA9ABCDEF ∧ d.connectionSn = 0xAA55 ∧
  d.originatorVendorId = 0xCBA9 ∧ d.originatorSn = 0xAA553412 ∧ d.oToTApi = 500000 ∧ d.tToOApi = 40000
/-- test_deserialize_no_data -/
example : someOpenSuccess.getLength = 26 ∧
    (outOf (openReplyHead ++ [0, 0xFF]) someOpenSuccess (ForwardOpenSuccess.cls.runLen 26)).1 = .ok () ∧
    (outOf (openReplyHead ++ [0, 0xFF]) someOpenSuccess (ForwardOpenSuccess.cls.runLen 26)).2.1 = 26 ∧
    openFields (outOf (openReplyHead ++ [0, 0xFF]) someOpenSuccess (ForwardOpenSuccess.cls.runLen 26)).2.2 = true ∧
    (outOf (openReplyHead ++ [0, 0xFF]) someOpenSuccess (ForwardOpenSuccess.cls.runLen 26)).2.2.responseData.isNone = true := by
  decide +kernel
/-- The reply with data. -/
def openReplyData : Bytes := openReplyHead ++ [4, 0xFF, 0x12, 0x34, 0x56, 0x78, 0x9A, 0xBC, 0xDE, 0xEF]
/-- test_deserialize_with_data -/
example :
    (outOf openReplyData someOpenSuccess (ForwardOpenSuccess.cls.runLen 34)).1 = .ok () ∧
    (outOf openReplyData someOpenSuccess (ForwardOpenSuccess.cls.runLen 34)).2.1 = 34 ∧
    openFields (outOf openReplyData someOpenSuccess (ForwardOpenSuccess.cls.runLen 34)).2.2 = true ∧
    raw (outOf openReplyData someOpenSuccess (ForwardOpenSuccess.cls.runLen 34)).2.2.responseData =
      some (openReplyData.drop 26) := by decide +kernel

/-! ### test/identity_item_data_test.cpp -/

/-- The record of both tests. -/
def identity : IdentityItemData :=
  { encapProtocolVersion := 0xAA55, sockaddr := { family := 0x0200, port := 0x3412, addr := 0x99EFCDAB, zero := (0, 0) },
    vendorId := 0xDDEE, deviceType := 0x7698, productCode := 0x5AA5, revision := (0x6B, 0xC7), status := 0x81E7,
    serialNumber := 0x12345678, productName := [97, 98, 99, 100, 101, 102], state := 0x7E }
/-- Its bytes. -/
def identityBytes : Bytes := [0x55, 0xAA, 0x00, 0x02, 0x12, 0x34, 0xAB, 0xCD, 0xEF, 0x99, 0, 0, 0, 0, 0, 0, 0, 0, 0xEE, 0xDD,
  0x98, 0x76, 0xA5, 0x5A, 0x6B, 0xC7, 0xE7, 0x81, 0x78, 0x56, 0x34, 0x12, 0x06, 97, 98, 99, 100, 101, 102, 0x7E]
/-- test_deserialize -/
example : outOf identityBytes { identity with encapProtocolVersion := 0, productName := [], state := 0 }
    IdentityItemData.deserialize = (.ok (), 40, identity) ∧ identity.getLength = 40 := by decide +kernel
/-- test_serialize -/
example : into 40 identity.serialize = (.ok (), 40, identityBytes) := by decide +kernel

/-! ### test/message_router_request_test.cpp -/

/-- test_serialize_no_data -/
example : (MessageRouterRequest.new 0xAA).getLength = 2 ∧
    into 2 (MessageRouterRequest.new 0xAA).serialize = (.ok (), 2, [0xAA, 0]) := by decide +kernel
/-- The request of test_serialize_with_data. -/
def routerRequest : MessageRouterRequest :=
  { MessageRouterRequest.new 0xAA with path := Path.mk3 0x73 1 4,
                                       data := some (SerializableBuffer.obj ⟨[0xEF, 0xBE, 0xAD, 0xDE]⟩) }
/-- test_serialize_with_data -/
example : routerRequest.getLength = 12 ∧ into 12 routerRequest.serialize = (.ok (), 12,
    [0xAA, 3, 0x20, 0x73, 0x24, 1, 0x30, 4, 0xEF, 0xBE, 0xAD, 0xDE]) := by decide +kernel

/-! ### test/message_router_response_test.cpp -/

set_option synthInstance.maxSize 1000
set_option synthInstance.maxHeartbeats 200000

/-- Parse a whole array as a response: outcome, bytes read, service, status, additional status, data. -/
def routed (d : Bytes) : Res Unit × Nat × UInt8 × UInt8 × Option Bytes × Option Bytes :=
  match outOf d MessageRouterResponse.new (MessageRouterResponse.cls.runLen d.length) with
  | (r, n, m) => (r, n, m.service, m.generalStatus, raw m.additionalStatus, raw m.responseData)
/-- test_deserialize_no_data -/
example : MessageRouterResponse.new.getLength = 4 ∧
    routed [0xAA, 0xFF, 0x55, 0] = (.ok (), 4, 0xAA, 0x55, none, none) := by decide +kernel
/-- test_deserialize_additional_status_but_no_data -/
example : routed [0xAA, 0xFF, 0x55, 2, 0xEF, 0xBE, 0xAD, 0xDE] =
    (.ok (), 8, 0xAA, 0x55, some [0xEF, 0xBE, 0xAD, 0xDE], none) := by decide +kernel
/-- test_deserialize_with_data_but_no_additional -/
example : routed [0xAA, 0xFF, 0x55, 0, 0xEF, 0xBE, 0xAD, 0xDE] =
    (.ok (), 8, 0xAA, 0x55, none, some [0xEF, 0xBE, 0xAD, 0xDE]) := by decide +kernel
/-- test_deserialize_with_additional_status_and_data -/
example : routed [0xAA, 0xFF, 0x55, 2, 0xEF, 0xBE, 0xAD, 0xDE, 0, 0, 0, 0, 0, 0, 0, 0] =
    (.ok (), 16, 0xAA, 0x55, some [0xEF, 0xBE, 0xAD, 0xDE], some [0, 0, 0, 0, 0, 0, 0, 0]) := by decide +kernel

/-! ### test/rr_data_request_test.cpp -/

/-- test_serialize_no_data -/
example : (RRDataRequest.new 0xAA Path.mk0 none).getLength = 18 ∧
    into 18 (RRDataRequest.new 0xAA Path.mk0 none).serialize = (.ok (), 18,
      [0, 0, 0, 0, 0, 0, 2, 0, 0, 0, 0, 0, 0xB2, 0, 2, 0, 0xAA, 0]) := by decide +kernel
/-- test_serialize_with_data, test_serialize_with_data_via_constructor -/
example : (RRDataRequest.new 0xAA (Path.mk3 0x73 1 4) (some (SerializableBuffer.obj ⟨[0xEF, 0xBE, 0xAD, 0xDE]⟩))).getLength = 28 ∧
    into 28 (RRDataRequest.new 0xAA (Path.mk3 0x73 1 4)
      (some (SerializableBuffer.obj ⟨[0xEF, 0xBE, 0xAD, 0xDE]⟩))).serialize = (.ok (), 28,
      [0, 0, 0, 0, 0, 0, 2, 0, 0, 0, 0, 0, 0xB2, 0, 12, 0, 0xAA, 3, 0x20, 0x73, 0x24, 1, 0x30, 4, 0xEF, 0xBE, 0xAD, 0xDE]) := by
  decide +kernel

/-! ### test/rr_data_response_test.cpp -/

/-- Parse an array as an RR data response: outcome, bytes read, base, service, status, additional status, data. -/
def responded (d : Bytes) : Res Unit × Nat × RRData × UInt8 × UInt8 × Option Bytes × Option Bytes :=
  match outOf d RRDataResponse.new RRDataResponse.cls.deserialize with
  | (r, n, m) => (r, n, m.base, m.getServiceCode, m.getGeneralStatus, raw m.getAdditionalStatus, raw m.getResponseData)
/-- test_deserialize_no_data -/
example : responded [0xEF, 0xBE, 0xAD, 0xDE, 0x55, 0xAA, 2, 0, 0, 0, 0, 0, 0xB2, 0, 4, 0, 0xAA, 0xFF, 0x55, 0] =
    (.ok (), 20, { interfaceHandle := 0xDEADBEEF, timeout := 0xAA55 }, 0xAA, 0x55, none, none) := by decide +kernel
/-- test_deserialize_with_data -/
example : responded [0xEF, 0xBE, 0xAD, 0xDE, 0x55, 0xAA, 2, 0, 0, 0, 0, 0, 0xB2, 0, 16, 0,
      0xAA, 0xFF, 0x55, 2, 0xEF, 0xBE, 0xAD, 0xDE, 0, 0, 0, 0, 0, 0, 0, 0] =
    (.ok (), 32, { interfaceHandle := 0xDEADBEEF, timeout := 0xAA55 }, 0xAA, 0x55,
      some [0xEF, 0xBE, 0xAD, 0xDE], some [0, 0, 0, 0, 0, 0, 0, 0]) := by decide +kernel

/-! ### test/rr_data_test.cpp -/

/-- test_serialize_no_data -/
example : RRData.getLength none = 16 ∧ into 16 (RRData.new.serialize none) = (.ok (), 16,
    [0, 0, 0, 0, 0, 0, 2, 0, 0, 0, 0, 0, 0xB2, 0, 0, 0]) := by decide +kernel
/-- test_deserialize_no_data -/
example : outOf [0, 0, 0, 0, 0, 0, 2, 0, 0, 0, 0, 0, 0xB2, 0, 0, 0] RRData.new RRData.cls.deserialize =
    (.ok (), 16, { interfaceHandle := 0, timeout := 0 }) := by decide +kernel
/-- test_deserialize_non_zero_data -/
example : outOf [0xEF, 0xBE, 0xAD, 0xDE, 0x55, 0xAA, 2, 0, 0, 0, 0, 0, 0xB2, 0, 0, 0] RRData.new RRData.cls.deserialize =
    (.ok (), 16, { interfaceHandle := 0xDEADBEEF, timeout := 0xAA55 }) := by decide +kernel
/-- test_deserialize_too_few_items -/
example : threw .logicError (outOf [0, 0, 0, 0, 0, 0, 1, 0, 0, 0, 0, 0] RRData.new RRData.cls.deserialize).1 = true := by
  decide +kernel
/-- test_deserialize_wrong_address_type -/
example : threw .logicError (outOf [0, 0, 0, 0, 0, 0, 2, 0, 0, 2, 0, 0, 0xB2, 0, 0, 0] RRData.new
    RRData.cls.deserialize).1 = true := by decide +kernel
/-- test_deserialize_contains_address_data -/
example : threw .logicError (outOf [0, 0, 0, 0, 0, 0, 2, 0, 0, 0, 2, 0, 0x55, 0xAA, 0xB2, 0, 0, 0] RRData.new
    RRData.cls.deserialize).1 = true := by decide +kernel
/-- test_deserialize_wrong_data_type -/
example : threw .logicError (outOf [0, 0, 0, 0, 0, 0, 2, 0, 0, 0, 0, 0, 0xB1, 0, 0, 0] RRData.new
    RRData.cls.deserialize).1 = true := by decide +kernel
/-- test_deserialize_too_many_items, which is commented out in the file: the code does not throw. -/
example : outOf [0, 0, 0, 0, 0, 0, 3, 0, 0, 0, 0, 0, 0xB2, 0, 0, 0, 0, 0, 0, 0] RRData.new RRData.cls.deserialize =
    (.ok (), 20, { interfaceHandle := 0, timeout := 0 }) := by decide +kernel

/-! ### test/sequenced_address_item_test.cpp -/

/-- test_deserialize -/
example : outOf [0x55, 0xAA, 0xEF, 0xBE, 0xEF, 0xBE, 0xAD, 0xDE] { connectionId := 0, sequenceNum := 0 }
    SequencedAddressItem.deserialize =
    (.ok (), 8, ({ connectionId := 0xBEEFAA55, sequenceNum := 0xDEADBEEF } : SequencedAddressItem)) := by decide +kernel
/-- test_serialize -/
example : into 8 ({ connectionId := 0xDEADBEEF, sequenceNum := 0xABCD1234 } : SequencedAddressItem).serialize =
    (.ok (), 8, [0xEF, 0xBE, 0xAD, 0xDE, 0x34, 0x12, 0xCD, 0xAB]) ∧
    ({ connectionId := 0xDEADBEEF, sequenceNum := 0xABCD1234 } : SequencedAddressItem).getLength = 8 := by decide +kernel

/-! ### test/test_socket_test.cpp -/

/-- A new socket with unknown contents of the transmit buffer. -/
def fresh (rx : Bytes) : TestSocket := TestSocket.new (List.replicate 4096 0xCC) rx
/-- test_open -/
example : ((fresh []).open "lehost" "aport").isOpen = true ∧ ((fresh []).open "lehost" "aport").hostname = "lehost" ∧
    ((fresh []).open "lehost" "aport").port = "aport" ∧ ((fresh []).open "lehost" "aport").close.isOpen = false := by
  decide +kernel
/-- The bytes of the next two tests. -/
def eight : Bytes := [0xAA, 0x55, 0x34, 0x12, 0xEF, 0xBE, 0xAD, 0xDE]
/-- test_send -/
example : ((fresh []).send (eight.take 4)).2.txCount = 4 ∧ ((((fresh []).send (eight.take 4)).2.send eight).2).txCount = 12 ∧
    ((((fresh []).send (eight.take 4)).2.send eight).2).txBuffer.take 6 = [0xAA, 0x55, 0x34, 0x12, 0xAA, 0x55] := by
  decide +kernel
/-- test_receive -/
example : ((fresh eight).receive 2).1 = [0xAA, 0x55] ∧
    (((fresh eight).receive 2).2.receive 8).1 = [0x34, 0x12, 0xEF, 0xBE, 0xAD, 0xDE] := by decide +kernel

/-! ### test/serialization/buffer_reader_test.cpp, stream_reader_test.cpp -/

/-- Two integers in a row. -/
def twoInts : Prog (Unit × Reader) (UInt32 × UInt32) := do
  let a ← onReader (Reader.readLocal 4)
  let b ← onReader (Reader.readLocal 4)
  pure (de32 a, de32 b)
/-- test_read_int of buffer_reader_test.cpp -/
example : (twoInts ((), .buffer (BufferReader.new eight))).1 = .ok (0x123455AA, 0xDEADBEEF) ∧
    (twoInts ((), .buffer (BufferReader.new eight))).2.2.getByteCount = 8 := by decide +kernel
/-- test_read_int of stream_reader_test.cpp -/
example : (twoInts ((), .stream ⟨eight, 0, true, 0xCC⟩)).1 = .ok (0x123455AA, 0xDEADBEEF) ∧
    (twoInts ((), .stream ⟨eight, 0, true, 0xCC⟩)).2.2.getByteCount = 8 := by decide +kernel
/-- test_read_int_short_buffer -/
example : threw .lengthError (twoInts ((), .buffer (BufferReader.new (eight.take 7)))).1 = true := by decide +kernel
/-- The bytes of the other tests. -/
def input : Bytes := [0xFF, 0xFE, 0xFD, 0xFC, 0xFB, 0xFA, 0x12, 0x34]
/-- test_read_bytes, test_read_buffer, test_read_bytes_no_copy, test_read_buffer_no_copy -/
example : ((BufferReader.readBuffer 8) (BufferReader.new input)).1 = .ok input ∧
    ((BufferReader.readBuffer 8) (BufferReader.new input)).2.getByteCount = 8 ∧
    ((Reader.readInto (List.replicate 8 0)) (.buffer (BufferReader.new input))).1 = .ok input := by decide +kernel
/-- test_read_bytes_short_buffer, test_read_buffer_short_buffer -/
example : threw .lengthError ((Reader.readInto (List.replicate 8 0)) (.buffer (BufferReader.new (input.take 7)))).1 = true := by
  decide +kernel
/-- Two bytes, four skipped, two bytes. -/
def skipping : Prog Reader (Bytes × Bytes) := do
  let a ← Reader.readInto [0, 0]
  Reader.skip 4
  let b ← Reader.readInto [0, 0]
  pure (a, b)
/-- test_read_skip -/
example : (skipping (.buffer (BufferReader.new input))).1 = .ok ([0xFF, 0xFE], [0x12, 0x34]) ∧
    (skipping (.buffer (BufferReader.new input))).2.getByteCount = 8 := by decide +kernel

/-- test_read_bytes, test_read_buffer and test_read_skip of stream_reader_test.cpp -/
example : ((Reader.readInto (List.replicate 8 0)) (.stream ⟨input, 0, true, 0xCC⟩)).1 = .ok input ∧
    ((Reader.readInto (List.replicate 8 0)) (.stream ⟨input, 0, true, 0xCC⟩)).2.getByteCount = 8 ∧
    (skipping (.stream ⟨input, 0, true, 0xCC⟩)).1 = .ok ([0xFF, 0xFE], [0x12, 0x34]) ∧
    (skipping (.stream ⟨input, 0, true, 0xCC⟩)).2.getByteCount = 8 := by decide +kernel

/-! ### test/serialization/buffer_writer_test.cpp, stream_writer_test.cpp -/

/-- Two integers in a row. -/
def writeInts : Prog Writer Unit := do
  Writer.write32 0x123455AA
  Writer.write32 0xDEADBEEF
/-- test_write_int of both files -/
example : into 8 writeInts = (.ok (), 8, eight) ∧ stream writeInts = (.ok (), 8, eight) := by decide +kernel
/-- test_write_int_short_buffer -/
example : threw .lengthError (into 7 writeInts).1 = true := by decide +kernel
/-- test_write_bytes, test_write_buffer of both files -/
example : into 8 (Writer.writeBuffer input) = (.ok (), 8, input) ∧ stream (Writer.writeBuffer input) = (.ok (), 8, input) := by
  decide +kernel
/-- test_write_bytes_short_buffer, test_write_buffer_short_buffer -/
example : threw .lengthError (into 7 (Writer.writeBuffer input)).1 = true := by decide +kernel

/-! ### test/serialization/serializable_buffer_test.cpp -/

/-- test_serialize -/
example : into 8 (⟨input⟩ : SerializableBuffer).serialize = (.ok (), 8, input) := by decide +kernel
/-- test_write_bytes_short_buffer -/
example : threw .lengthError (into 7 (⟨input⟩ : SerializableBuffer).serialize).1 = true := by decide +kernel
/-- test_deserialize -/
example : (outOf input ⟨List.replicate 8 0xCC⟩ SerializableBuffer.deserialize).1 = .ok () ∧
    (outOf input ⟨List.replicate 8 0xCC⟩ SerializableBuffer.deserialize).2.1 = 8 ∧
    (outOf input ⟨List.replicate 8 0xCC⟩ SerializableBuffer.deserialize).2.2.data = input := by decide +kernel
/-- test_deserialize_fixed_length -/
example : (SerializableBuffer.deserializeLen 4 (.empty, .stream ⟨input, 0, true, 0xCC⟩)).1 = .ok () ∧
    (SerializableBuffer.deserializeLen 4 (.empty, .stream ⟨input, 0, true, 0xCC⟩)).2.1.data = input.take 4 ∧
    (SerializableBuffer.deserializeLen 4 (.empty, .stream ⟨input, 0, true, 0xCC⟩)).2.2.getByteCount = 4 := by decide +kernel
/-- test_deserialize_no_copy -/
example : (outOf input .empty (SerializableBuffer.deserializeLen 4)).1 = .ok () ∧
    (outOf input .empty (SerializableBuffer.deserializeLen 4)).2.1 = 4 ∧
    (outOf input .empty (SerializableBuffer.deserializeLen 4)).2.2.data = input.take 4 := by decide +kernel
/-- test_deserialize_short_buffer -/
example : threw .lengthError (outOf (input.take 7) ⟨List.replicate 8 0xCC⟩ SerializableBuffer.deserialize).1 = true := by
  decide +kernel
/-- test_deserialize_no_copy_short_buffer -/
example : threw .lengthError (outOf input .empty (SerializableBuffer.deserializeLen 9)).1 = true := by decide +kernel

/-! ### test/serialization/serializable_primitive_test.cpp -/

/-- test_serialize_EIP_UDINT, test_serialize_EIP_UDINT_accessor -/
example : into 4 (SerializablePrimitive.serialize .u32 ⟨0xDEADBEEF⟩) = (.ok (), 4, [0xEF, 0xBE, 0xAD, 0xDE]) := by
  decide +kernel
/-- test_serialize_EIP_INT: `-1` as the bits of an unsigned integer. -/
example : into 2 (SerializablePrimitive.serialize .u16 ⟨0xFFFF⟩) = (.ok (), 2, [0xFF, 0xFF]) := by decide +kernel
/-- test_serialize_EIP_UDINT_short_buffer -/
example : threw .lengthError (into 3 (SerializablePrimitive.serialize .u32 ⟨0xDEADBEEF⟩)).1 = true := by decide +kernel
/-- test_deserialize_EIP_UDINT -/
example : (outOf [0xEF, 0xBE, 0xAD, 0xDE] ⟨0⟩ (SerializablePrimitive.deserialize .u32)).1 = .ok () ∧
    (outOf [0xEF, 0xBE, 0xAD, 0xDE] ⟨0⟩ (SerializablePrimitive.deserialize .u32)).2.1 = 4 ∧
    (outOf [0xEF, 0xBE, 0xAD, 0xDE] ⟨0⟩ (SerializablePrimitive.deserialize .u32)).2.2.data = 0xDEADBEEF := by decide +kernel
/-- test_deserialize_EIP_INT -/
example : (outOf [0xFF, 0xFF] ⟨0⟩ (SerializablePrimitive.deserialize .u16)).2.2.data = 0xFFFF := by decide +kernel
/-- test_deserialize_EIP_UDINT_short_buffer -/
example : threw .lengthError (outOf [0xEF, 0xBE, 0xAD] ⟨0⟩ (SerializablePrimitive.deserialize .u32)).1 = true := by
  decide +kernel

end Eip.Tests
