import Verif.Model.Writer
import Verif.Model.Reader
/-
serialization/serializable.h, serializable_buffer.h, serializable_primitive.h, src/copy_serializable.cpp
-/
namespace Eip

/-- An object of a class derived from `Serializable` (serialization/serializable.h:38-71) in the role of a
source: the results of its virtual functions. `asBuffer` is `dynamic_cast<const SerializableBuffer*>` followed
by `getData()` (src/copy_serializable.cpp:37, 47): `none` when the object is not a `SerializableBuffer`.
Simplification: `getLength` returns normally (the only one that throws is `RRDataResponse`'s, which the
library never uses as a source). -/
structure Obj where
  getLength : Nat
  serialize : Prog Writer Unit
  asBuffer : Option Bytes

/-- A class derived from `Serializable` (serialization/serializable.h:62, 70) in the role of a destination.
`τ` is the class's data.
* `deserialize` is the body of `deserialize(Reader&)`.
* `deserializeLen` is the body of `deserialize(Reader&, size_t)` when the object is the `τ` part of a possibly
  larger object `σ`: it is given a way to act on the part, the dynamic type's virtual `deserialize(Reader&)`
  and virtual `getLength()` of the whole object (open recursion through the vtable).
* `assignBuffer` is `some` when the class derives from `SerializableBuffer`: the effect of
  `(*dst_sb) = (*src_sb)` (src/copy_serializable.cpp:43) with the given source bytes. -/
structure Class (τ : Type) : Type 1 where
  getLength : τ → Nat
  deserialize : Prog (τ × Reader) Unit
  deserializeLen : (σ : Type) → (Prog (τ × Reader) Unit → Prog (σ × Reader) Unit) →
    (virtDeserialize : Prog (σ × Reader) Unit) → (virtGetLength : σ → Nat) → (length : Nat) →
    Prog (σ × Reader) Unit
  assignBuffer : Option (Bytes → τ → τ)

/-- `obj.deserialize(reader, length)` for an object whose dynamic type is the class itself. -/
def Class.runLen {τ : Type} (c : Class τ) (length : Nat) : Prog (τ × Reader) Unit :=
  c.deserializeLen τ id c.deserialize c.getLength length

/-- Body of `deserialize(Reader&, size_t)` shared by the classes that ignore the length and call the virtual
`deserialize(reader)`: serializable_primitive.h:88-92, register_session_data.h:79-83, cpf_packet.h:89-93,
rr_data.h:88-92, identity_item_data.h:77-81, sequenced_address_item.h:80-83, forward_open_success.h:109-112,
forward_close_success.h:101-104. -/
def delegateLen {τ : Type} : (σ : Type) → (Prog (τ × Reader) Unit → Prog (σ × Reader) Unit) →
    (virtDeserialize : Prog (σ × Reader) Unit) → (virtGetLength : σ → Nat) → (length : Nat) →
    Prog (σ × Reader) Unit :=
  fun _ _ virtDeserialize _ _ => virtDeserialize

/-! ### SerializableBuffer -/

/-- `SerializableBuffer` (serialization/serializable_buffer.h:45-174) at value level: the bytes `data_` refers to.
Ownership and aliasing of that memory are modelled in `Verif.Model.Mem`. -/
structure SerializableBuffer where
  data : Bytes
  deriving DecidableEq, Repr

namespace SerializableBuffer

/-- `SerializableBuffer()` (serialization/serializable_buffer.h:53). -/
def empty : SerializableBuffer := ⟨[]⟩

/-- `getLength` (serialization/serializable_buffer.h:71-74). -/
def getLength (b : SerializableBuffer) : Nat := b.data.length

/-- `serialize` (serialization/serializable_buffer.h:103-107). -/
def serialize (b : SerializableBuffer) : Prog Writer Unit := Writer.writeBuffer b.data

/-- `deserialize(Reader&)` (serialization/serializable_buffer.h:148-152): fills the current buffer. -/
def deserialize : Prog (SerializableBuffer × Reader) Unit := do
  let b ← getObj
  let bs ← onReader (Reader.readInto b.data)
  modifyObj (fun _ => ⟨bs⟩)

/-- `deserialize(Reader&, size_t)` (serialization/serializable_buffer.h:118-139): with a `BufferReader` the buffer
becomes the next `length` bytes of the input; otherwise the current memory is reused when its size is right and
new memory (contents unknown) is allocated when it is not, and the stream is read into it. Simplification: memory the
buffer has allocated earlier is freed even if a `BufferReader` then throws, which leaves `data_` dangling; here it keeps
its bytes (Model/Mem has the memory, C66 what goes wrong). -/
def deserializeLen (length : Nat) : Prog (SerializableBuffer × Reader) Unit := fun (b, r) =>
  match r with
  | .buffer br =>
    match BufferReader.readBuffer length br with
    | (.ok bs, br') => (.ok (), (⟨bs⟩, .buffer br'))
    | (.throw e, br') => (.throw e, (b, .buffer br'))
    | (.ub u, br') => (.ub u, (b, .buffer br'))
  | .stream sr =>
    let target := if length ≠ b.data.length then List.replicate length sr.junk else b.data
    match StreamReader.readInto target sr with
    | (.ok bs, sr') => (.ok (), (⟨bs⟩, .stream sr'))
    | (.throw e, sr') => (.throw e, (⟨target⟩, .stream sr'))
    | (.ub u, sr') => (.ub u, (⟨target⟩, .stream sr'))

/-- The virtual functions of a `SerializableBuffer` used as a source. -/
def obj (b : SerializableBuffer) : Obj := ⟨b.getLength, b.serialize, some b.data⟩

/-- `SerializableBuffer` as a destination class. -/
def cls : Class SerializableBuffer where
  getLength := getLength
  deserialize := deserialize
  deserializeLen := fun _ part _ _ length => part (deserializeLen length)
  assignBuffer := some (fun d _ => ⟨d⟩)

end SerializableBuffer

/-! ### SerializablePrimitive -/

/-- `SerializablePrimitive<T>` (serialization/serializable_primitive.h:41-106). -/
structure SerializablePrimitive (τ : Type) where
  data : τ
  deriving DecidableEq, Repr

namespace SerializablePrimitive
variable {τ : Type}

/-- `getLength` (serialization/serializable_primitive.h:63-66): `sizeof(T)`. -/
def getLength (c : Codec τ) (v : SerializablePrimitive τ) : Nat := (c.enc v.data).length

/-- `serialize` (serialization/serializable_primitive.h:74-78). -/
def serialize (c : Codec τ) (v : SerializablePrimitive τ) : Prog Writer Unit :=
  Writer.writeBuffer (c.enc v.data)

/-- `deserialize(Reader&)` (serialization/serializable_primitive.h:101-105). -/
def deserialize (c : Codec τ) : Prog (SerializablePrimitive τ × Reader) Unit :=
  readMember c (·.data) (fun d v => { v with data := d })

/-- The virtual functions of a primitive used as a source. -/
def obj (c : Codec τ) (v : SerializablePrimitive τ) : Obj := ⟨v.getLength c, v.serialize c, none⟩

/-- `SerializablePrimitive<T>` as a destination class (serialization/serializable_primitive.h:88-105). -/
def cls (c : Codec τ) : Class (SerializablePrimitive τ) where
  getLength := getLength c
  deserialize := deserialize c
  deserializeLen := delegateLen
  assignBuffer := none

end SerializablePrimitive

/-! ### copy_serializable -/

/-- Run `dst.deserialize(reader, length)` on a local `BufferReader` over `buf`; the reader goes out of scope. -/
def deserializeFrom {δ : Type} (c : Class δ) (buf : Bytes) (length : Nat) : Prog δ Unit := fun d =>
  match c.runLen length (d, .buffer (BufferReader.new buf)) with
  | (r, (d', _)) => (r, d')

/-- `copy_serializable(Serializable& dst, const Serializable& src)` (src/copy_serializable.cpp:34-70). -/
def copySerializable {δ : Type} (c : Class δ) (src : Obj) : Prog δ Unit :=
  match src.asBuffer with
  | some bytes =>
    match c.assignBuffer with
    | some assign => Prog.modify (assign bytes)
    | none => deserializeFrom c bytes src.getLength
  | none =>
    match c.assignBuffer with
    | some _ => Prog.raise (logicError "Cannot get payload from Serializable to SerializableBuffer")
    | none => fun d =>
      let buf := List.replicate src.getLength 0
      match src.serialize (.buffer (BufferWriter.new buf)) with
      | (.ok (), .buffer w) => deserializeFrom c w.memory src.getLength d
      | (.ok (), .stream _) => deserializeFrom c buf src.getLength d
      | (.throw e, _) => (.throw e, d)
      | (.ub u, _) => (.ub u, d)

end Eip
