import Verif.Model.Path
import Verif.Model.CPF
/-
message_router_request.h, message_router_response.h, src/message_router_response.cpp, rr_data.h,
src/rr_data.cpp, rr_data_request.h, rr_data_response.h, forward_open_request.h, forward_open_success.h,
forward_close_request.h, forward_close_success.h
-/
namespace Eip

/-- `deserialize` of the classes that cannot be received (message_router_request.h:120-131,
forward_open_request.h:183-194, forward_close_request.h:105-116). -/
def notImplemented {σ α : Type} : Prog σ α := Prog.raise (logicError "Not implemented")

/-! ### MessageRouterRequest -/

/-- `MessageRouterRequest` (message_router_request.h:49-136). -/
structure MessageRouterRequest where
  service : UInt8
  path : Path
  data : Option Obj

namespace MessageRouterRequest

/-- `MessageRouterRequest(service_code)` (message_router_request.h:58). -/
def new (service : UInt8 := 0) : MessageRouterRequest := ⟨service, Path.mk0, none⟩

/-- `getLength` (message_router_request.h:91-99). -/
def getLength (r : MessageRouterRequest) : Nat :=
  1 + r.path.getLength + (match r.data with | some d => d.getLength | none => 0)

/-- `serialize` (message_router_request.h:107-115). -/
def serialize (r : MessageRouterRequest) : Prog Writer Unit := do
  Writer.write8 r.service
  r.path.serialize
  match r.data with
  | some d => d.serialize
  | none => pure ()

/-- `MessageRouterRequest` as a source. -/
def obj (r : MessageRouterRequest) : Obj := ⟨r.getLength, r.serialize, none⟩

end MessageRouterRequest

/-! ### MessageRouterResponse -/

/-- `MessageRouterResponse` (message_router_response.h:48-121). -/
structure MessageRouterResponse where
  service : UInt8
  generalStatus : UInt8
  additionalStatus : Option Obj
  responseData : Option Obj

namespace MessageRouterResponse

/-- `MessageRouterResponse()` (message_router_response.h:58). -/
def new : MessageRouterResponse := ⟨0, 0, none, none⟩

/-- `getLength` (src/message_router_response.cpp:37-50). -/
def getLength (r : MessageRouterResponse) : Nat :=
  1 + 1 + 1 + 1
    + (match r.additionalStatus with | some d => d.getLength | none => 0)
    + (match r.responseData with | some d => d.getLength | none => 0)

/-- `readData(Reader&, int)` (src/message_router_response.cpp:65-74). -/
def readData {δ : Type} (length : Int) : Prog (δ × Reader) (Option Obj) :=
  if length > 0 then do
    let sb ← readNewBuffer length.toNat
    pure (some sb.obj)
  else pure none

/-- `deserialize(Reader&, size_t)` (src/message_router_response.cpp:52-63): the general status is read twice so
that the reserved byte is overwritten; the response data takes `length` minus everything the reader has ever
delivered. -/
def deserializeSized (length : Nat) : Prog (MessageRouterResponse × Reader) Unit := do
  readMember .u8 (·.service) (fun v r => { r with service := v })
  readMember .u8 (·.generalStatus) (fun v r => { r with generalStatus := v })
  readMember .u8 (·.generalStatus) (fun v r => { r with generalStatus := v })
  let additionalStatusLength ← readLocal8
  let a ← readData (sizeToInt (2 * additionalStatusLength.toNat))
  modifyObj (fun r => { r with additionalStatus := a })
  let count ← (fun s => (.ok s.2.getByteCount, s))
  let d ← readData (sizeToInt (sizeSub length count))
  modifyObj (fun r => { r with responseData := d })

/-- `MessageRouterResponse` as a source: `serialize` throws (message_router_response.h:90-93). -/
def obj (r : MessageRouterResponse) : Obj := ⟨r.getLength, notImplemented, none⟩

/-- `MessageRouterResponse` as a destination; `deserialize(Reader&)` is message_router_response.h:103-106. -/
def cls : Class MessageRouterResponse where
  getLength := getLength
  deserialize := Prog.raise (logicError "Must have size to deserialize")
  deserializeLen := fun _ part _ _ length => part (deserializeSized length)
  assignBuffer := none

end MessageRouterResponse

/-! ### RRData -/

/-- `RRData` (rr_data.h:51-117): the two plain members. -/
structure RRData where
  interfaceHandle : UInt32
  timeout : UInt16
  deriving DecidableEq, Repr

namespace RRData

/-- `RRData()` (rr_data.h:61). -/
def new : RRData := ⟨0, 0⟩

/-- `getLength` (rr_data.h:67-75), given the result of the virtual `getData()`. -/
def getLength (data : Option Obj) : Nat :=
  4 + 2 + 5 * 2 + (match data with | some d => d.getLength | none => 0)

/-- `serialize` (src/rr_data.cpp:39-48), given the result of the virtual `getData()`. -/
def serialize (r : RRData) (data : Option Obj) : Prog Writer Unit := do
  Writer.write32 r.interfaceHandle
  Writer.write16 r.timeout
  CPFPacket.serialize ⟨[CPFItem.null, ⟨itemUnconnectedMessage, data⟩]⟩

/-- `pkt.deserialize(reader)` for the local `CPFPacket pkt` (src/rr_data.cpp:54-55). -/
def parseCPF {δ : Type} : Prog (δ × Reader) CPFPacket := parseFresh ⟨[]⟩ CPFPacket.deserialize

/-- `deserialize(Reader&)` (src/rr_data.cpp:50-82) for an object with an `RRData` base, given the virtual
`setData`. `vector::at` throws `out_of_range` (a `logic_error`) past the end. Simplification: the warning for
more than two items (line 64) is not modelled. -/
def deserialize {δ : Type} (getBase : δ → RRData) (setBase : RRData → δ → δ) (setData : CPFItem → Prog δ Unit) :
    Prog (δ × Reader) Unit := do
  onPart getBase setBase (readMember .u32 (·.interfaceHandle) (fun v r => { r with interfaceHandle := v }))
  onPart getBase setBase (readMember .u16 (·.timeout) (fun v r => { r with timeout := v }))
  let pkt ← parseCPF
  if pkt.getItemCount.toNat < 2 then
    Prog.raise (logicError "Not enough items in RR Data")
  else
    match pkt.items[0]?, pkt.items[1]? with
    | some i0, some i1 =>
      if i0.itemType ≠ itemNull then Prog.raise (logicError "Address other than null in RR Data")
      else if i0.getDataLength ≠ 0 then
        Prog.raise (logicError "Data length greater than zero in null address type")
      else if i1.itemType ≠ itemUnconnectedMessage then
        Prog.raise (logicError "Unexpected data type in RR Data")
      else Prog.zoom (·.1) (fun d s => (d, s.2)) (setData i1)
    | _, _ => Prog.raise (logicError "vector::_M_range_check")

/-- A plain `RRData` as a source: `getData()` is null (rr_data.h:107-110). -/
def obj (r : RRData) : Obj := ⟨getLength none, r.serialize none, none⟩

/-- A plain `RRData` as a destination: `setData` does nothing (rr_data.h:116). -/
def cls : Class RRData where
  getLength := fun _ => getLength none
  deserialize := deserialize id (fun r _ => r) (fun _ => pure ())
  deserializeLen := delegateLen
  assignBuffer := none

end RRData

/-- `RRDataRequest` (rr_data_request.h:54-151). -/
structure RRDataRequest where
  base : RRData
  mr : MessageRouterRequest

namespace RRDataRequest

/-- `RRDataRequest(service, path, data)` (rr_data_request.h:69-74). -/
def new (service : UInt8) (path : Path) (data : Option Obj) : RRDataRequest :=
  ⟨RRData.new, ⟨service, path, data⟩⟩

/-- `getLength` (rr_data.h:67-75 with `getData()` of rr_data_request.h:136-139). -/
def getLength (r : RRDataRequest) : Nat := RRData.getLength (some r.mr.obj)

/-- `serialize` (src/rr_data.cpp:39-48 with `getData()` of rr_data_request.h:136-139). -/
def serialize (r : RRDataRequest) : Prog Writer Unit := r.base.serialize (some r.mr.obj)

/-- `RRDataRequest` as a source. -/
def obj (r : RRDataRequest) : Obj := ⟨r.getLength, r.serialize, none⟩

/-- `RRDataRequest` as a destination: `setData` throws (rr_data_request.h:144-147). -/
def cls : Class RRDataRequest where
  getLength := getLength
  deserialize := RRData.deserialize (·.base) (fun b r => { r with base := b }) (fun _ => notImplemented)
  deserializeLen := delegateLen
  assignBuffer := none

end RRDataRequest

/-- `RRDataResponse` (rr_data_response.h:56-137). -/
structure RRDataResponse where
  base : RRData
  mr : MessageRouterResponse

namespace RRDataResponse

/-- A default constructed `RRDataResponse` (rr_data.h:61, message_router_response.h:58). -/
def new : RRDataResponse := ⟨RRData.new, MessageRouterResponse.new⟩

/-- `getServiceCode` (rr_data_response.h:64-67). -/
def getServiceCode (r : RRDataResponse) : UInt8 := r.mr.service
/-- `getGeneralStatus` (rr_data_response.h:73-76). -/
def getGeneralStatus (r : RRDataResponse) : UInt8 := r.mr.generalStatus

/-- `getAdditionalStatus` (rr_data_response.h:83-86). -/
def getAdditionalStatus (r : RRDataResponse) : Option Obj := r.mr.additionalStatus
/-- `getResponseData` (rr_data_response.h:93-96). -/
def getResponseData (r : RRDataResponse) : Option Obj := r.mr.responseData

/-- `setData` (rr_data_response.h:130-133). -/
def setData (item : CPFItem) : Prog RRDataResponse Unit :=
  Prog.zoom (·.mr) (fun m r => { r with mr := m }) (item.getDataAs MessageRouterResponse.cls)

/-- `getAdditionalStatusAs` (rr_data_response.h:103-106): dereferences without checking. -/
def getAdditionalStatusAs {δ : Type} (r : RRDataResponse) (c : Class δ) : Prog δ Unit :=
  match r.mr.additionalStatus with
  | some d => copySerializable c d
  | none => Prog.undef .nullDeref

/-- `getResponseDataAs` (rr_data_response.h:113-116): dereferences without checking. -/
def getResponseDataAs {δ : Type} (r : RRDataResponse) (c : Class δ) : Prog δ Unit :=
  match r.mr.responseData with
  | some d => copySerializable c d
  | none => Prog.undef .nullDeref

/-- `RRDataResponse` as a destination. `getLength` (rr_data.h:67-75) would throw through `getData()`
(rr_data_response.h:122-125); no modelled code calls it, and the value 0 here stands for that. -/
def cls : Class RRDataResponse where
  getLength := fun _ => 0
  deserialize := RRData.deserialize (·.base) (fun b r => { r with base := b }) setData
  deserializeLen := delegateLen
  assignBuffer := none

end RRDataResponse

/-! ### Forward open and close -/

/-- `ForwardOpenRequest` (forward_open_request.h:66-198). -/
structure ForwardOpenRequest where
  timeoutTickSize : UInt8
  timeoutTicks : UInt8
  oToTConnectionId : UInt32
  tToOConnectionId : UInt32
  connectionSn : UInt16
  originatorVendorId : UInt16
  originatorSn : UInt32
  timeoutMultiplyer : UInt8
  oToTRpi : UInt32
  oToTConnParams : UInt32
  tToORpi : UInt32
  tToOConnParams : UInt32
  connType : UInt8
  path : Path
  deriving DecidableEq, Repr

namespace ForwardOpenRequest

/-- `calcConnectionParams` (forward_open_request.h:92-97). The C++ operands before the last are of type `int`
and non-negative (`3 << 29` still fits), the last is `unsigned`, so 32-bit unsigned arithmetic is exact. -/
def calcConnectionParams (size : UInt16) (isVariable : Bool) (priority type : UInt8) (shared : Bool) : UInt32 :=
  (size.toUInt32 &&& (0x7FFF : UInt32)) ||| (if isVariable then (0x2000000 : UInt32) else 0) |||
    ((priority.toUInt32 &&& (0x03 : UInt32)) <<< (26 : UInt32)) |||
    ((type.toUInt32 &&& (0x03 : UInt32)) <<< (29 : UInt32)) |||
    (if shared then (0x80000000 : UInt32) else 0)

/-- `getLength` (forward_open_request.h:132-149). -/
def getLength (r : ForwardOpenRequest) : Nat :=
  1 + 1 + 4 + 4 + 2 + 2 + 4 + 1 + 4 + 4 + 4 + 4 + 1 + 3 + r.path.getLength

/-- `serialize` (forward_open_request.h:157-178). -/
def serialize (r : ForwardOpenRequest) : Prog Writer Unit := do
  Writer.write8 r.timeoutTickSize
  Writer.write8 r.timeoutTicks
  Writer.write32 r.oToTConnectionId
  Writer.write32 r.tToOConnectionId
  Writer.write16 r.connectionSn
  Writer.write16 r.originatorVendorId
  Writer.write32 r.originatorSn
  Writer.write8 r.timeoutMultiplyer
  Writer.write8 0
  Writer.write8 0
  Writer.write8 0
  Writer.write32 r.oToTRpi
  Writer.write32 r.oToTConnParams
  Writer.write32 r.tToORpi
  Writer.write32 r.tToOConnParams
  Writer.write8 r.connType
  r.path.serialize

/-- `ForwardOpenRequest` as a source. -/
def obj (r : ForwardOpenRequest) : Obj := ⟨r.getLength, r.serialize, none⟩

end ForwardOpenRequest

/-- `ForwardCloseRequest` (forward_close_request.h:49-120). -/
structure ForwardCloseRequest where
  timeoutTickSize : UInt8
  timeoutTicks : UInt8
  connectionSn : UInt16
  originatorVendorId : UInt16
  originatorSn : UInt32
  path : Path
  deriving DecidableEq, Repr

namespace ForwardCloseRequest

/-- `getLength` (forward_close_request.h:72-81). -/
def getLength (r : ForwardCloseRequest) : Nat := 1 + 1 + 2 + 2 + 4 + 1 + r.path.getLength

/-- `serialize` (forward_close_request.h:89-100): the path is always written with the pad byte. -/
def serialize (r : ForwardCloseRequest) : Prog Writer Unit := do
  Writer.write8 r.timeoutTickSize
  Writer.write8 r.timeoutTicks
  Writer.write16 r.connectionSn
  Writer.write16 r.originatorVendorId
  Writer.write32 r.originatorSn
  r.path.serializePad true

/-- `ForwardCloseRequest` as a source. -/
def obj (r : ForwardCloseRequest) : Obj := ⟨r.getLength, r.serialize, none⟩

end ForwardCloseRequest

/-- `ForwardOpenSuccess` (forward_open_success.h:53-145). -/
structure ForwardOpenSuccess where
  oToTConnectionId : UInt32
  tToOConnectionId : UInt32
  connectionSn : UInt16
  originatorVendorId : UInt16
  originatorSn : UInt32
  oToTApi : UInt32
  tToOApi : UInt32
  responseData : Option Obj

namespace ForwardOpenSuccess

/-- `getLength` (forward_open_success.h:78-93). -/
def getLength (r : ForwardOpenSuccess) : Nat :=
  4 + 4 + 2 + 2 + 4 + 4 + 4 + 2 + (match r.responseData with | some d => d.getLength | none => 0)

/-- `deserialize(Reader&)` (forward_open_success.h:117-140). -/
def deserialize : Prog (ForwardOpenSuccess × Reader) Unit := do
  readMember .u32 (·.oToTConnectionId) (fun v r => { r with oToTConnectionId := v })
  readMember .u32 (·.tToOConnectionId) (fun v r => { r with tToOConnectionId := v })
  readMember .u16 (·.connectionSn) (fun v r => { r with connectionSn := v })
  readMember .u16 (·.originatorVendorId) (fun v r => { r with originatorVendorId := v })
  readMember .u32 (·.originatorSn) (fun v r => { r with originatorSn := v })
  readMember .u32 (·.oToTApi) (fun v r => { r with oToTApi := v })
  readMember .u32 (·.tToOApi) (fun v r => { r with tToOApi := v })
  let dataLength ← readLocal8
  onReader (Reader.skip 1)
  if dataLength.toNat > 0 then do
    let sb ← readNewBuffer (dataLength.toNat * 2)
    modifyObj (fun r => { r with responseData := some sb.obj })
  else
    modifyObj (fun r => { r with responseData := none })

/-- As a source: `serialize` throws (forward_open_success.h:101-104). -/
def obj (r : ForwardOpenSuccess) : Obj := ⟨r.getLength, notImplemented, none⟩

/-- `ForwardOpenSuccess` as a destination (forward_open_success.h:109-140). -/
def cls : Class ForwardOpenSuccess where
  getLength := getLength
  deserialize := deserialize
  deserializeLen := delegateLen
  assignBuffer := none

end ForwardOpenSuccess

/-- `ForwardCloseSuccess` (forward_close_success.h:53-133). -/
structure ForwardCloseSuccess where
  connectionSn : UInt16
  originatorVendorId : UInt16
  originatorSn : UInt32
  responseData : Option Obj

namespace ForwardCloseSuccess

/-- `getLength` (forward_close_success.h:74-85). -/
def getLength (r : ForwardCloseSuccess) : Nat :=
  2 + 2 + 4 + 2 + (match r.responseData with | some d => d.getLength | none => 0)

/-- `deserialize(Reader&)` (forward_close_success.h:109-128). -/
def deserialize : Prog (ForwardCloseSuccess × Reader) Unit := do
  readMember .u16 (·.connectionSn) (fun v r => { r with connectionSn := v })
  readMember .u16 (·.originatorVendorId) (fun v r => { r with originatorVendorId := v })
  readMember .u32 (·.originatorSn) (fun v r => { r with originatorSn := v })
  let dataLength ← readLocal8
  onReader (Reader.skip 1)
  if dataLength.toNat > 0 then do
    let sb ← readNewBuffer (dataLength.toNat * 2)
    modifyObj (fun r => { r with responseData := some sb.obj })
  else
    modifyObj (fun r => { r with responseData := none })

/-- As a source: `serialize` throws (forward_close_success.h:93-96). -/
def obj (r : ForwardCloseSuccess) : Obj := ⟨r.getLength, notImplemented, none⟩

/-- `ForwardCloseSuccess` as a destination (forward_close_success.h:101-128). -/
def cls : Class ForwardCloseSuccess where
  getLength := getLength
  deserialize := deserialize
  deserializeLen := delegateLen
  assignBuffer := none

end ForwardCloseSuccess
end Eip
