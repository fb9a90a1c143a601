import Verif.Model.Serializable
/-
register_session_data.h, identity_item_data.h, src/identity_item_data.cpp, sequenced_address_item.h,
sequenced_data_item.h
-/
namespace Eip

/-! ### RegisterSessionData -/

/-- `EIP_PROTOCOL_VERSION` (eip_types.h:31). -/
def eipProtocolVersion : UInt16 := 1

/-- `RegisterSessionData` (register_session_data.h:46-97). -/
structure RegisterSessionData where
  protocolVersion : UInt16
  options : UInt16
  deriving DecidableEq, Repr

namespace RegisterSessionData

/-- `RegisterSessionData()` (register_session_data.h:52). -/
def new : RegisterSessionData := ⟨eipProtocolVersion, 0⟩

/-- `getLength` (register_session_data.h:58-61). -/
def getLength (_ : RegisterSessionData) : Nat := 4

/-- `serialize` (register_session_data.h:69-74). -/
def serialize (d : RegisterSessionData) : Prog Writer Unit := do
  Writer.write16 d.protocolVersion
  Writer.write16 d.options

/-- `deserialize(Reader&)` (register_session_data.h:91-96). -/
def deserialize : Prog (RegisterSessionData × Reader) Unit := do
  readMember .u16 (·.protocolVersion) (fun v d => { d with protocolVersion := v })
  readMember .u16 (·.options) (fun v d => { d with options := v })

/-- `RegisterSessionData` as a source. -/
def obj (d : RegisterSessionData) : Obj := ⟨d.getLength, d.serialize, none⟩

/-- `RegisterSessionData` as a destination (register_session_data.h:79-96). -/
def cls : Class RegisterSessionData where
  getLength := getLength
  deserialize := deserialize
  deserializeLen := delegateLen
  assignBuffer := none

end RegisterSessionData

/-! ### IdentityItemData -/

/-- The members of `struct sockaddr_in` (Linux x86-64 layout, 16 bytes) used as `IdentityItemData::sockaddr`
(identity_item_data.h:50). `port` and `addr` are the raw in-memory integers; `zero` is `sin_zero[8]` as two
words. -/
structure SockAddrIn where
  family : UInt16
  port : UInt16
  addr : UInt32
  zero : UInt32 × UInt32
  deriving DecidableEq, Repr

/-- Memory of `sockaddr_in`, read and written as one 16-byte block (src/identity_item_data.cpp:49, 67). -/
def Codec.sockaddr : Codec SockAddrIn where
  enc s := le16 s.family ++ le16 s.port ++ le32 s.addr ++ le32 s.zero.1 ++ le32 s.zero.2
  dec bs :=
    { family := de16 (bs.take 2)
      port := de16 ((bs.drop 2).take 2)
      addr := de32 ((bs.drop 4).take 4)
      zero := (de32 ((bs.drop 8).take 4), de32 ((bs.drop 12).take 4)) }

/-- Memory of `EIP_USINT revision[2]` (identity_item_data.h:54). -/
def Codec.revision : Codec (UInt8 × UInt8) := Codec.pair Codec.u8 1 Codec.u8

/-- `IdentityItemData` (identity_item_data.h:46-90). `productName` is the `std::string` as its `char`s. -/
structure IdentityItemData where
  encapProtocolVersion : UInt16
  sockaddr : SockAddrIn
  vendorId : UInt16
  deviceType : UInt16
  productCode : UInt16
  revision : UInt8 × UInt8
  status : UInt16
  serialNumber : UInt32
  productName : Bytes
  state : UInt8
  deriving DecidableEq, Repr

namespace IdentityItemData

/-- `getLength` (src/identity_item_data.cpp:30-44). -/
def getLength (d : IdentityItemData) : Nat :=
  2 + 16 + 2 + 2 + 2 + 2 + 2 + 4 + 1 + d.productName.length + 1

/-- `serialize` (src/identity_item_data.cpp:46-62): `EIP_USINT name_length = product_name.size()` keeps the low
eight bits, and that many characters are written. -/
def serialize (d : IdentityItemData) : Prog Writer Unit := do
  Writer.write16 d.encapProtocolVersion
  Writer.writeBuffer (Codec.sockaddr.enc d.sockaddr)
  Writer.write16 d.vendorId
  Writer.write16 d.deviceType
  Writer.write16 d.productCode
  Writer.writeBuffer (Codec.revision.enc d.revision)
  Writer.write16 d.status
  Writer.write32 d.serialNumber
  let nameLength : UInt8 := UInt8.ofNat d.productName.length
  Writer.write8 nameLength
  Writer.writeBuffer (d.productName.take nameLength.toNat)
  Writer.write8 d.state

/-- `std::string::resize(n)` (src/identity_item_data.cpp:77). -/
def resize (n : Nat) (s : Bytes) : Bytes := s.take n ++ List.replicate (n - s.length) 0

/-- `deserialize(Reader&)` (src/identity_item_data.cpp:64-81). -/
def deserialize : Prog (IdentityItemData × Reader) Unit := do
  readMember .u16 (·.encapProtocolVersion) (fun v d => { d with encapProtocolVersion := v })
  readMember .sockaddr (·.sockaddr) (fun v d => { d with sockaddr := v })
  readMember .u16 (·.vendorId) (fun v d => { d with vendorId := v })
  readMember .u16 (·.deviceType) (fun v d => { d with deviceType := v })
  readMember .u16 (·.productCode) (fun v d => { d with productCode := v })
  readMember .revision (·.revision) (fun v d => { d with revision := v })
  readMember .u16 (·.status) (fun v d => { d with status := v })
  readMember .u32 (·.serialNumber) (fun v d => { d with serialNumber := v })
  let nameLength ← readLocal8
  modifyObj (fun d => { d with productName := resize nameLength.toNat d.productName })
  let d ← getObj
  let bs ← onReader (Reader.readInto d.productName)
  modifyObj (fun d => { d with productName := bs })
  readMember .u8 (·.state) (fun v d => { d with state := v })

/-- `IdentityItemData` as a source. -/
def obj (d : IdentityItemData) : Obj := ⟨d.getLength, d.serialize, none⟩

/-- `IdentityItemData` as a destination; `deserialize(Reader&, size_t)` is identity_item_data.h:77-81. -/
def cls : Class IdentityItemData where
  getLength := getLength
  deserialize := deserialize
  deserializeLen := delegateLen
  assignBuffer := none

end IdentityItemData

/-! ### SequencedAddressItem -/

/-- `SequencedAddressItem` (sequenced_address_item.h:46-97). -/
structure SequencedAddressItem where
  connectionId : UInt32
  sequenceNum : UInt32
  deriving DecidableEq, Repr

namespace SequencedAddressItem

/-- `getLength` (sequenced_address_item.h:59-62). -/
def getLength (_ : SequencedAddressItem) : Nat := 4 + 4

/-- `serialize` (sequenced_address_item.h:70-75). -/
def serialize (d : SequencedAddressItem) : Prog Writer Unit := do
  Writer.write32 d.connectionId
  Writer.write32 d.sequenceNum

/-- `deserialize(Reader&)` (sequenced_address_item.h:91-96). -/
def deserialize : Prog (SequencedAddressItem × Reader) Unit := do
  readMember .u32 (·.connectionId) (fun v d => { d with connectionId := v })
  readMember .u32 (·.sequenceNum) (fun v d => { d with sequenceNum := v })

/-- `SequencedAddressItem` as a source. -/
def obj (d : SequencedAddressItem) : Obj := ⟨d.getLength, d.serialize, none⟩

/-- `SequencedAddressItem` as a destination (sequenced_address_item.h:80-96). -/
def cls : Class SequencedAddressItem where
  getLength := getLength
  deserialize := deserialize
  deserializeLen := delegateLen
  assignBuffer := none

end SequencedAddressItem

/-! ### SequencedDataItem<T> -/

/-- `SequencedDataItem<T>` (sequenced_data_item.h:48-109), derived from `T`: the base sub-object, `sequence_num`
and the flag `already_deserializing`. -/
structure SequencedDataItem (τ : Type) where
  base : τ
  sequenceNum : UInt16
  alreadyDeserializing : Bool
  deriving DecidableEq, Repr

namespace SequencedDataItem
variable {τ : Type}

/-- `SequencedDataItem(sequence)` (sequenced_data_item.h:54) on top of a constructed base. -/
def new (base : τ) (sequence : UInt16 := 0) : SequencedDataItem τ := ⟨base, sequence, false⟩

/-- `getLength` (sequenced_data_item.h:60-63). -/
def getLength (c : Class τ) (d : SequencedDataItem τ) : Nat := 2 + c.getLength d.base

/-- `serialize` (sequenced_data_item.h:71-75), given the base object's virtual table. -/
def serialize (baseObj : Obj) (sequenceNum : UInt16) : Prog Writer Unit := do
  Writer.write16 sequenceNum
  baseObj.serialize

/-- Act on the base sub-object. -/
def onBase {α : Type} (p : Prog (τ × Reader) α) : Prog (SequencedDataItem τ × Reader) α :=
  onPart (·.base) (fun b d => { d with base := b }) p

/-- `deserialize(Reader&)` (sequenced_data_item.h:96-104): after an exception the flag stays set. -/
def deserialize (c : Class τ) : Prog (SequencedDataItem τ × Reader) Unit := do
  let d ← getObj
  if d.alreadyDeserializing then onBase c.deserialize
  else do
    readMember .u16 (·.sequenceNum) (fun v d => { d with sequenceNum := v })
    modifyObj (fun d => { d with alreadyDeserializing := true })
    onBase c.deserialize
    modifyObj (fun d => { d with alreadyDeserializing := false })

/-- `deserialize(Reader&, size_t)` (sequenced_data_item.h:80-88). `T::deserialize(reader, length - 2)` is a
non-virtual call, but the body of `T::deserialize(Reader&, size_t)` calls back the virtual
`deserialize(Reader&)` and `getLength()` of the whole object. -/
def deserializeLen (c : Class τ) (length : Nat) : Prog (SequencedDataItem τ × Reader) Unit := do
  let d ← getObj
  if d.alreadyDeserializing then
    c.deserializeLen (SequencedDataItem τ) onBase (deserialize c) (getLength c) (sizeSub length 2)
  else do
    readMember .u16 (·.sequenceNum) (fun v d => { d with sequenceNum := v })
    modifyObj (fun d => { d with alreadyDeserializing := true })
    c.deserializeLen (SequencedDataItem τ) onBase (deserialize c) (getLength c) (sizeSub length 2)
    modifyObj (fun d => { d with alreadyDeserializing := false })

/-- `SequencedDataItem<T>` as a source, given the base object's virtual table. `getLength` is virtual also
when the object is handled as a `SerializableBuffer`. -/
def obj (baseObj : Obj) (sequenceNum : UInt16) : Obj :=
  ⟨2 + baseObj.getLength, serialize baseObj sequenceNum, baseObj.asBuffer⟩

/-- The class table of `SequencedDataItem<T>` (sequenced_data_item.h:48-109). Simplification: it is the most
derived class (the library never derives from it), so the part is the whole object. `assignBuffer` replaces
only the base sub-object: `SerializableBuffer::operator=` (src/copy_serializable.cpp:43) is not virtual. -/
def cls (c : Class τ) : Class (SequencedDataItem τ) where
  getLength := getLength c
  deserialize := deserialize c
  deserializeLen := fun _ part _ _ length => part (deserializeLen c length)
  assignBuffer := c.assignBuffer.map (fun f bs d => { d with base := f bs d.base })

end SequencedDataItem
end Eip
