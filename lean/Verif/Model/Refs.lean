import Verif.Model.Mem
import Verif.Model.Messages
import Verif.Model.Session
/-
Parsing at the level of references: which memory the raw buffers inside a parsed object refer to. With a `BufferReader`
no data is copied into a `SerializableBuffer` (serialization/serializable_buffer.h:121-126): the object keeps a reference
into the memory that was parsed.
-/
namespace Eip

/-- `len` bytes from offset `off` of the memory being parsed. -/
structure Slice where
  off : Nat
  len : Nat
  deriving DecidableEq, Repr

/-- The bytes a slice refers to when the memory contains `mem`. -/
def Slice.bytes (mem : Bytes) (s : Slice) : Bytes := (mem.drop s.off).take s.len

/-- `BufferReader` (serialization/buffer_reader.h:45-140) as it is: `buf_` (line 138) is a part of the memory `mem`,
`byteCount` is `byte_count_` (line 139). -/
structure RefReader where
  mem : Bytes
  buf : Slice
  byteCount : Nat
  deriving DecidableEq, Repr

/-- The reader of the value-level model with the same remaining bytes. -/
def RefReader.value (r : RefReader) : BufferReader := ⟨r.buf.bytes r.mem, r.byteCount⟩

/-- Code that only reads members of plain types (`Reader::read`, serialization/reader.h:51-54) keeps no references: it
acts as in the value-level model, and `buf_` advances by what was consumed. -/
def plain {δ α : Type} (p : Prog (δ × Reader) α) : Prog (δ × RefReader) α := fun (d, r) =>
  match p (d, .buffer r.value) with
  | (x, (d', .buffer br)) =>
    (x, (d', { r with buf := ⟨r.buf.off + (r.buf.len - br.rest.length), br.rest.length⟩, byteCount := br.byteCount }))
  | (x, (d', .stream _)) => (x, (d', r))

/-- `make_shared<SerializableBuffer>()` followed by `deserialize(reader, length)` with a `BufferReader`
(serialization/serializable_buffer.h:121-126, serialization/buffer_reader.h:83-93): the new buffer's `data_`. -/
def readNewSlice {δ : Type} (length : Nat) : Prog (δ × RefReader) Slice := fun (d, r) =>
  if r.buf.len < length then (.throw (lengthError "Buffer too small to deserialize value"), (d, r))
  else (.ok ⟨r.buf.off, length⟩,
    (d, { r with buf := ⟨r.buf.off + length, r.buf.len - length⟩, byteCount := r.byteCount + length }))

/-- The object under deserialization. -/
def getRefObj {δ : Type} : Prog (δ × RefReader) δ := fun s => (.ok s.1, s)

/-- Update the object under deserialization. -/
def modifyRefObj {δ : Type} (f : δ → δ) : Prog (δ × RefReader) Unit := fun s => (.ok (), (f s.1, s.2))

/-- `parseFresh` (Verif.Model.Reader) at the level of references. -/
def parseFreshRef {δ τ : Type} (t : τ) (p : Prog (τ × RefReader) Unit) : Prog (δ × RefReader) τ := fun (d, r) =>
  match p (t, r) with
  | (.ok (), (t', r')) => (.ok t', (d, r'))
  | (.throw e, (_, r')) => (.throw e, (d, r'))
  | (.ub u, (_, r')) => (.ub u, (d, r'))

/-- The object a raw buffer with the given `data_` is at value level. -/
def Slice.obj (mem : Bytes) (s : Slice) : Obj := (SerializableBuffer.mk (s.bytes mem)).obj

/-! ### CPFItem and CPFPacket -/

/-- A parsed `CPFItem` (cpf_item.h:48-160): `item_data_` is null or a raw buffer. -/
structure ItemRef where
  itemType : UInt16
  data : Option Slice
  deriving DecidableEq, Repr

/-- What the item is at value level when the memory contains `mem`. -/
def ItemRef.value (mem : Bytes) (i : ItemRef) : CPFItem := ⟨i.itemType, i.data.map (Slice.obj mem)⟩

/-- `CPFItem::deserialize(Reader&)` (src/cpf_item.cpp:64-84). -/
def ItemRef.deserialize : Prog (ItemRef × RefReader) Unit := do
  plain (readMember .u16 (·.itemType) (fun v i => { i with itemType := v }))
  let itemLength ← plain readLocal16
  if itemLength.toNat > 0 then do
    modifyRefObj (fun i => { i with data := some ⟨0, 0⟩ })
    let s ← readNewSlice itemLength.toNat
    modifyRefObj (fun i => { i with data := some s })
  else
    modifyRefObj (fun i => { i with data := none })

/-- A parsed `CPFPacket` (cpf_packet.h:49-105). -/
structure PacketRef where
  items : List ItemRef
  deriving DecidableEq, Repr

/-- What the packet is at value level when the memory contains `mem`. -/
def PacketRef.value (mem : Bytes) (p : PacketRef) : CPFPacket := ⟨p.items.map (ItemRef.value mem)⟩

/-- The loop of `CPFPacket::deserialize` (src/cpf_packet.cpp:61-66). -/
def PacketRef.deserializeItems : Nat → Prog (PacketRef × RefReader) Unit
  | 0 => pure ()
  | n + 1 => do
    let item ← parseFreshRef ⟨itemNull, none⟩ ItemRef.deserialize
    modifyRefObj (fun p => { p with items := p.items ++ [item] })
    deserializeItems n

/-- `CPFPacket::deserialize(Reader&)` (src/cpf_packet.cpp:56-68). -/
def PacketRef.deserialize : Prog (PacketRef × RefReader) Unit := do
  modifyRefObj (fun p => { p with items := [] })
  let numItems ← plain readLocal16
  PacketRef.deserializeItems numItems.toNat

/-! ### EncapPacket -/

/-- A parsed `EncapPacket` (encap_packet.h:50-158): `payload_` is null or a raw buffer. -/
structure EncapRef where
  header : EncapHeader
  payload : Option Slice
  deriving DecidableEq, Repr

/-- What the packet is at value level when the memory contains `mem`. -/
def EncapRef.value (mem : Bytes) (p : EncapRef) : EncapPacket := ⟨p.header, p.payload.map (Slice.obj mem)⟩

/-- `EncapPacket::deserialize(Reader&, size_t)` (src/encap_packet.cpp:77-98). -/
def EncapRef.deserializeSized (length : Nat) : Prog (EncapRef × RefReader) Unit := do
  let p0 ← getRefObj
  if length < p0.header.getLength then
    Prog.raise (lengthError "Deserialization size less than header size")
  else do
    plain (onPart (·.header) (fun h p => { p with header := h }) EncapHeader.deserialize)
    let p ← getRefObj
    if length ≠ p.header.getLength + p.header.length.toNat then
      Prog.raise (lengthError "Packet length different than given to deserialize")
    else if p.header.length.toNat > 0 then do
      modifyRefObj (fun p => { p with payload := some ⟨0, 0⟩ })
      let s ← readNewSlice p.header.length.toNat
      modifyRefObj (fun p => { p with payload := some s })
    else
      modifyRefObj (fun p => { p with payload := none })

/-! ### MessageRouterResponse -/

/-- A parsed `MessageRouterResponse` (message_router_response.h:48-121). -/
structure ResponseRef where
  service : UInt8
  generalStatus : UInt8
  additionalStatus : Option Slice
  responseData : Option Slice
  deriving DecidableEq, Repr

/-- What the response is at value level when the memory contains `mem`. -/
def ResponseRef.value (mem : Bytes) (p : ResponseRef) : MessageRouterResponse :=
  ⟨p.service, p.generalStatus, p.additionalStatus.map (Slice.obj mem), p.responseData.map (Slice.obj mem)⟩

/-- `MessageRouterResponse::readData` (src/message_router_response.cpp:65-74). -/
def ResponseRef.readData {δ : Type} (length : Int) : Prog (δ × RefReader) (Option Slice) :=
  if length > 0 then do
    let s ← readNewSlice length.toNat
    pure (some s)
  else pure none

/-- `MessageRouterResponse::deserialize(Reader&, size_t)` (src/message_router_response.cpp:52-63). -/
def ResponseRef.deserializeSized (length : Nat) : Prog (ResponseRef × RefReader) Unit := do
  plain (readMember .u8 (·.service) (fun v r => { r with service := v }))
  plain (readMember .u8 (·.generalStatus) (fun v r => { r with generalStatus := v }))
  plain (readMember .u8 (·.generalStatus) (fun v r => { r with generalStatus := v }))
  let additionalStatusLength ← plain readLocal8
  let a ← ResponseRef.readData (sizeToInt (2 * additionalStatusLength.toNat))
  modifyRefObj (fun r => { r with additionalStatus := a })
  let count ← (fun s => (.ok s.2.byteCount, s))
  let d ← ResponseRef.readData (sizeToInt (sizeSub length count))
  modifyRefObj (fun r => { r with responseData := d })

/-! ### copy_serializable -/

/-- The source of `copy_serializable` (src/copy_serializable.cpp:34): a raw buffer or anything else. -/
inductive Source
  | raw (sb : SBuf)
  | structured (o : Obj)

/-- An object whose raw buffers all refer to one block of memory. -/
structure Located (δ : Type) where
  block : Nat
  obj : δ

/-- Read one of the raw buffers of an object. -/
def Located.read {δ : Type} (l : Located δ) (s : Slice) : Prog Heap Bytes := Heap.load ⟨l.block, s.off, s.len⟩

/-- The bytes of a block, `[]` if it is not live. -/
def Heap.bytes (h : Heap) (b : Nat) : Bytes :=
  match h.blocks[b]? with
  | some (some bs) => bs
  | _ => []

/-- `copy_serializable(dst, src)` (src/copy_serializable.cpp:34-70) for a freshly made destination `init` that is not a
`SerializableBuffer`; `parse` is its `deserialize(reader, length)`. From a raw buffer the destination is parsed in place
(lines 47-48). From anything else it is parsed from the local `std::vector<char> buf` (lines 64-68), which is destroyed
when the function returns or throws (lines 69-70). -/
def copyLocated {δ : Type} (parse : Nat → Prog (δ × RefReader) Unit) (init : δ) : Source → Prog Heap (Located δ)
  | .raw sb => fun h =>
    match h.contents sb.data with
    | none => (.ub .danglingAccess, h)
    | some _ =>
      match parse sb.data.len (init, ⟨h.bytes sb.data.block, ⟨sb.data.off, sb.data.len⟩, 0⟩) with
      | (.ok (), (d, _)) => (.ok ⟨sb.data.block, d⟩, h)
      | (.throw e, _) => (.throw e, h)
      | (.ub u, _) => (.ub u, h)
  | .structured o => fun h =>
    match o.serialize (.buffer (BufferWriter.new (List.replicate o.getLength 0))) with
    | (.ok (), .buffer w) =>
      match Heap.alloc w.memory h with
      | (.ok b, h1) =>
        match parse o.getLength (init, ⟨w.memory, ⟨0, w.memory.length⟩, 0⟩), Heap.free b h1 with
        | (.ok (), (d, _)), (_, h2) => (.ok ⟨b, d⟩, h2)
        | (.throw e, _), (_, h2) => (.throw e, h2)
        | (.ub u, _), (_, h2) => (.ub u, h2)
      | (.throw e, h1) => (.throw e, h1)
      | (.ub u, h1) => (.ub u, h1)
    | (.ok (), .stream _) => (.throw (logicError ""), h)
    | (.throw e, _) => (.throw e, h)
    | (.ub u, _) => (.ub u, h)

/-! ### IO packets -/

/-- `receiveIOPacket` (src/session.cpp:335-351) at the level of references: the items refer to the session's
`recv_buffer_`, whose contents are `w.s.recvBuffer`. -/
def Session.receiveIORefs : Prog World PacketRef := do
  let bytes ← sockReceive .io
  let w ← Prog.get
  Session.onLocal ⟨[]⟩ (fun p =>
    match PacketRef.deserialize (p, ⟨w.s.recvBuffer, ⟨0, bytes.length⟩, 0⟩) with
    | (r, (p', _)) => (r, p'))

end Eip
