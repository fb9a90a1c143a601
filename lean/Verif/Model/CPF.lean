import Verif.Model.Encap
/-
cpf_item.h, src/cpf_item.cpp, cpf_packet.h, src/cpf_packet.cpp
-/
namespace Eip

/-- `EIP_ITEM_NULL` (eip_types.h:86). -/
def itemNull : UInt16 := 0x0000
/-- `EIP_ITEM_UNCONNECTED_MESSAGE` (eip_types.h:90). -/
def itemUnconnectedMessage : UInt16 := 0x00B2

/-- `CPFItem` (cpf_item.h:48-160). -/
structure CPFItem where
  itemType : UInt16
  data : Option Obj

namespace CPFItem

/-- `CPFItem()` (cpf_item.h:56). -/
def null : CPFItem := ⟨itemNull, none⟩

/-- `getDataLength` (cpf_item.h:111-114): returns `EIP_UINT`, so the length is truncated to 16 bits. -/
def getDataLength (i : CPFItem) : UInt16 :=
  match i.data with
  | some d => UInt16.ofNat d.getLength
  | none => 0

/-- `getLength` (cpf_item.h:121-124). -/
def getLength (i : CPFItem) : Nat := 4 + i.getDataLength.toNat

/-- `serialize` (src/cpf_item.cpp:37-45). -/
def serialize (i : CPFItem) : Prog Writer Unit := do
  Writer.write16 i.itemType
  Writer.write16 i.getDataLength
  match i.data with
  | some d => d.serialize
  | none => pure ()

/-- `deserializeData` (src/cpf_item.cpp:73-84). -/
def deserializeData (itemLength : UInt16) : Prog (CPFItem × Reader) Unit :=
  if itemLength.toNat > 0 then do
    modifyObj (fun i => { i with data := some SerializableBuffer.empty.obj })
    let sb ← readNewBuffer itemLength.toNat
    modifyObj (fun i => { i with data := some sb.obj })
  else
    modifyObj (fun i => { i with data := none })

/-- `deserialize(Reader&)` (src/cpf_item.cpp:64-71). -/
def deserialize : Prog (CPFItem × Reader) Unit := do
  readMember .u16 (·.itemType) (fun v i => { i with itemType := v })
  let itemLength ← readLocal16
  deserializeData itemLength

/-- `deserialize(Reader&, size_t)` (src/cpf_item.cpp:47-62). -/
def deserializeSized (length : Nat) : Prog (CPFItem × Reader) Unit :=
  if length < 4 then
    Prog.raise (lengthError "Length given too small to parse CPF Item type and length")
  else do
    readMember .u16 (·.itemType) (fun v i => { i with itemType := v })
    let itemLength ← readLocal16
    if length < itemLength.toNat + 4 then
      Prog.raise (lengthError "Length given too small to parse CPF Item Data")
    else deserializeData itemLength

/-- `getDataAs` (src/cpf_item.cpp:86-89): dereferences `item_data_` without checking it. -/
def getDataAs {δ : Type} (i : CPFItem) (c : Class δ) : Prog δ Unit :=
  match i.data with
  | some d => copySerializable c d
  | none => Prog.undef .nullDeref

/-- `CPFItem` as a source. -/
def obj (i : CPFItem) : Obj := ⟨i.getLength, i.serialize, none⟩

/-- `CPFItem` as a destination. -/
def cls : Class CPFItem where
  getLength := getLength
  deserialize := deserialize
  deserializeLen := fun _ part _ _ length => part (deserializeSized length)
  assignBuffer := none

end CPFItem

/-- `CPFPacket` (cpf_packet.h:49-105). -/
structure CPFPacket where
  items : List CPFItem

namespace CPFPacket

/-- `getItemCount` (cpf_packet.h:57-60): truncated to `EIP_UINT`. -/
def getItemCount (p : CPFPacket) : UInt16 := UInt16.ofNat p.items.length

/-- `getLength` (src/cpf_packet.cpp:35-44). -/
def getLength (p : CPFPacket) : Nat := p.items.foldl (fun l i => l + i.getLength) 2

/-- The loop of `serialize` (src/cpf_packet.cpp:49-52). -/
def serializeItems : List CPFItem → Prog Writer Unit
  | [] => pure ()
  | i :: is => do
    i.serialize
    serializeItems is

/-- `serialize` (src/cpf_packet.cpp:46-54). -/
def serialize (p : CPFPacket) : Prog Writer Unit := do
  Writer.write16 p.getItemCount
  serializeItems p.items

/-- The loop of `deserialize` (src/cpf_packet.cpp:61-66): every item is parsed into a fresh null item and
appended. -/
def deserializeItems : Nat → Prog (CPFPacket × Reader) Unit
  | 0 => pure ()
  | n + 1 => do
    let item ← parseFresh CPFItem.null CPFItem.deserialize
    modifyObj (fun p => { p with items := p.items ++ [item] })
    deserializeItems n

/-- `deserialize(Reader&)` (src/cpf_packet.cpp:56-68). -/
def deserialize : Prog (CPFPacket × Reader) Unit := do
  modifyObj (fun p => { p with items := [] })
  let numItems ← readLocal16
  deserializeItems numItems.toNat

/-- `CPFPacket` as a source. -/
def obj (p : CPFPacket) : Obj := ⟨p.getLength, p.serialize, none⟩

/-- `CPFPacket` as a destination; `deserialize(Reader&, size_t)` is cpf_packet.h:89-93. -/
def cls : Class CPFPacket where
  getLength := getLength
  deserialize := deserialize
  deserializeLen := delegateLen
  assignBuffer := none

end CPFPacket
end Eip
