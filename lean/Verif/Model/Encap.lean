import Verif.Model.Serializable
/-
encap_header.h, src/encap_header.cpp, encap_packet.h, src/encap_packet.cpp
-/
namespace Eip

/-- `EncapHeader` (encap_header.h:44-106); `context[2]` is a pair. -/
structure EncapHeader where
  command : UInt16
  length : UInt16
  sessionHandle : UInt32
  status : UInt32
  context : UInt32 × UInt32
  options : UInt32
  deriving DecidableEq, Repr

/-- Memory of `EIP_DWORD context[2]` (encap_header.h:51), read and written as one block
(src/encap_header.cpp:41, 52). -/
def Codec.context : Codec (UInt32 × UInt32) := Codec.pair Codec.u32 4 Codec.u32

namespace EncapHeader

/-- `EncapHeader(cmd, handle)` (encap_header.h:57-62). -/
def new (cmd : UInt16 := 0) (handle : UInt32 := 0) : EncapHeader := ⟨cmd, 0, handle, 0, (0, 0), 0⟩

/-- `getLength` (encap_header.h:68-71). -/
def getLength (_ : EncapHeader) : Nat := 24

/-- `serialize` (src/encap_header.cpp:35-44). -/
def serialize (h : EncapHeader) : Prog Writer Unit := do
  Writer.write16 h.command
  Writer.write16 h.length
  Writer.write32 h.sessionHandle
  Writer.write32 h.status
  Writer.writeBuffer (Codec.context.enc h.context)
  Writer.write32 h.options

/-- `deserialize(Reader&)` (src/encap_header.cpp:46-55). -/
def deserialize : Prog (EncapHeader × Reader) Unit := do
  readMember .u16 (·.command) (fun v h => { h with command := v })
  readMember .u16 (·.length) (fun v h => { h with length := v })
  readMember .u32 (·.sessionHandle) (fun v h => { h with sessionHandle := v })
  readMember .u32 (·.status) (fun v h => { h with status := v })
  readMember .context (·.context) (fun v h => { h with context := v })
  readMember .u32 (·.options) (fun v h => { h with options := v })

/-- `EncapHeader` as a source. -/
def obj (h : EncapHeader) : Obj := ⟨h.getLength, h.serialize, none⟩

/-- `EncapHeader` as a destination; `deserialize(Reader&, size_t)` is encap_header.h:89-97. -/
def cls : Class EncapHeader where
  getLength := getLength
  deserialize := deserialize
  deserializeLen := fun _ _ virtDeserialize virtGetLength length => do
    let o ← getObj
    if virtGetLength o ≠ length then
      Prog.raise (lengthError "Invalid length given for encapsulation packet header")
    else virtDeserialize
  assignBuffer := none

end EncapHeader

/-- `make_shared<SerializableBuffer>()` followed by `deserialize(reader, length)` on it
(src/encap_packet.cpp:66-67, 90-91, src/cpf_item.cpp:77-78, src/message_router_response.cpp:70-71,
forward_open_success.h:131-132, forward_close_success.h:119-120): returns the new buffer. -/
def readNewBuffer {δ : Type} (length : Nat) : Prog (δ × Reader) SerializableBuffer :=
  parseFresh SerializableBuffer.empty (SerializableBuffer.deserializeLen length)

/-- `EncapPacket` (encap_packet.h:50-158); `payload_` is a possibly null `shared_ptr<Serializable>`.
Simplification: the payload is the object's value now; `Model/Sharing` has packets with pointers to shared objects (C120). -/
structure EncapPacket where
  header : EncapHeader
  payload : Option Obj

namespace EncapPacket

/-- `updateLength` (encap_packet.h:126-129): the length is truncated to `EIP_UINT`. -/
def updateLength (p : EncapPacket) : EncapPacket :=
  { p with header := { p.header with length :=
      match p.payload with
      | some d => UInt16.ofNat d.getLength
      | none => 0 } }

/-- `EncapPacket(command, session_handle)` (encap_packet.h:57-58). -/
def new (command : UInt16 := 0) (handle : UInt32 := 0) : EncapPacket := ⟨.new command handle, none⟩

/-- `EncapPacket(command, session_handle, payload)` (encap_packet.h:66-71). -/
def withPayload (command : UInt16) (handle : UInt32) (payload : Option Obj) : EncapPacket :=
  updateLength ⟨.new command handle, payload⟩

/-- `setPayload` (encap_packet.h:96-100). -/
def setPayload (p : EncapPacket) (payload : Option Obj) : EncapPacket :=
  updateLength { p with payload := payload }

/-- `getLength` (encap_packet.h:112-120). -/
def getLength (p : EncapPacket) : Nat :=
  p.header.getLength + (match p.payload with | some d => d.getLength | none => 0)

/-- `serialize` (src/encap_packet.cpp:49-59). -/
def serialize (p : EncapPacket) : Prog Writer Unit := do
  p.header.serialize
  match p.payload with
  | some d => d.serialize
  | none => pure ()

/-- `deserialize(Reader&)` (src/encap_packet.cpp:61-75). -/
def deserialize : Prog (EncapPacket × Reader) Unit := do
  onPart (·.header) (fun h p => { p with header := h }) EncapHeader.deserialize
  let p ← getObj
  if p.header.length.toNat > 0 then do
    let sb ← readNewBuffer p.header.length.toNat
    modifyObj (fun p => { p with payload := some sb.obj })
  else
    modifyObj (fun p => { p with payload := none })

/-- `deserialize(Reader&, size_t)` (src/encap_packet.cpp:77-98): here `payload_` is replaced by an empty buffer
before the payload is read. -/
def deserializeSized (length : Nat) : Prog (EncapPacket × Reader) Unit := do
  let p0 ← getObj
  if length < p0.header.getLength then
    Prog.raise (lengthError "Deserialization size less than header size")
  else do
    onPart (·.header) (fun h p => { p with header := h }) EncapHeader.deserialize
    let p ← getObj
    if length ≠ p.header.getLength + p.header.length.toNat then
      Prog.raise (lengthError "Packet length different than given to deserialize")
    else if p.header.length.toNat > 0 then do
      modifyObj (fun p => { p with payload := some SerializableBuffer.empty.obj })
      let sb ← readNewBuffer p.header.length.toNat
      modifyObj (fun p => { p with payload := some sb.obj })
    else
      modifyObj (fun p => { p with payload := none })

/-- `getPayloadAs` (src/encap_packet.cpp:44-47): dereferences `payload_` without checking it. -/
def getPayloadAs {δ : Type} (p : EncapPacket) (c : Class δ) : Prog δ Unit :=
  match p.payload with
  | some d => copySerializable c d
  | none => Prog.undef .nullDeref

/-- `EncapPacket` as a source. -/
def obj (p : EncapPacket) : Obj := ⟨p.getLength, p.serialize, none⟩

/-- `EncapPacket` as a destination. -/
def cls : Class EncapPacket where
  getLength := getLength
  deserialize := deserialize
  deserializeLen := fun _ part _ _ length => part (deserializeSized length)
  assignBuffer := none

end EncapPacket
end Eip
