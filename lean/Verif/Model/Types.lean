import Verif.Model.Session
/-
The plain types of eip_types.h as objects in memory, and `getSingleAttribute<T>` and `setSingleAttribute<T>` (session.h:116-148)
for each of them.
-/
namespace Eip

/-- The types of an attribute that eip_types.h has names for (eip_types.h:34-43). -/
inductive EipType
  | bool | byte | usint | sint | word | uint | int | dword | udint | dint
  deriving DecidableEq, Repr

namespace EipType

/-- `sizeof(T)` (eip_types.h:34-43). `sizeof(bool)` is implementation-defined; it is 1 in the ABIs of gcc and clang. -/
def size : EipType → Nat
  | .bool | .byte | .usint | .sint => 1
  | .word | .uint | .int => 2
  | .dword | .udint | .dint => 4

/-- The values of the type (eip_types.h:34-43). -/
abbrev Val : EipType → Type
  | .bool => Bool
  | .byte | .usint => UInt8
  | .sint => Int8
  | .word | .uint => UInt16
  | .int => Int16
  | .dword | .udint => UInt32
  | .dint => Int32

/-- The memory of an object of the type (eip_types.h:34-43) that has the value `v`, on a little-endian host: a `bool` is one
byte 0 or 1, signed numbers are in two's complement (gcc, clang). -/
def store : (t : EipType) → t.Val → Bytes
  | .bool, v => [if v then 1 else 0]
  | .byte, v | .usint, v => le8 v
  | .sint, v => le8 v.toUInt8
  | .word, v | .uint, v => le16 v
  | .int, v => le16 v.toUInt16
  | .dword, v | .udint, v => le32 v
  | .dint, v => le32 v.toUInt32

/-- The value of an object of the type (eip_types.h:34-43) whose memory is `bs`. A `bool` whose memory is neither 0 nor 1 has
no value; to read it is undefined behaviour. -/
def load : (t : EipType) → Bytes → Res t.Val
  | .bool, bs => if bs = [0] then .ok false else if bs = [1] then .ok true else .ub .invalidBool
  | .byte, bs | .usint, bs => .ok (de8 bs)
  | .sint, bs => .ok (de8 bs).toInt8
  | .word, bs | .uint, bs => .ok (de16 bs)
  | .int, bs => .ok (de16 bs).toInt16
  | .dword, bs | .udint, bs => .ok (de32 bs)
  | .dint, bs => .ok (de32 bs).toInt32

/-- `EIP_TYPE_CODE` (eip_types.h:45-57): the code of the type. -/
def code : EipType → UInt8
  | .bool => 0xC1
  | .byte => 0xD1
  | .usint => 0xC6
  | .sint => 0xC2
  | .word => 0xD2
  | .uint => 0xC7
  | .int => 0xC3
  | .dword => 0xD3
  | .udint => 0xC8
  | .dint => 0xC4

end EipType

/-- The memory of an object of `n` bytes: member `data` of `SerializablePrimitive<T>` (serialization/serializable_primitive.h:45)
before it is looked at. -/
abbrev Cell (n : Nat) : Type := { bs : Bytes // bs.length = n }

/-- `Reader::read` and `Writer::write` copy the memory as it is (serialization/reader.h:51-54, serialization/writer.h:50-53).
`dec` is only applied to blocks of `n` bytes. -/
def Codec.cell (n : Nat) : Codec (Cell n) :=
  ⟨(·.1), fun bs => if h : bs.length = n then ⟨bs, h⟩ else ⟨List.replicate n 0, List.length_replicate⟩⟩

namespace Session

/-- `getSingleAttribute<T>` (session.h:116-122) for the types of eip_types.h; `mem` is the uninitialised memory of `data.data`
(session.h:119), and `return data.data` (line 121) reads it. -/
def getSingleAttributeOf (t : EipType) (classId instanceId attributeId : UInt8) (mem : Cell t.size) : Prog World t.Val :=
  fun w =>
    match getSingleAttribute (Codec.cell t.size) classId instanceId attributeId mem w with
    | (.ok d, w') => (t.load d.1, w')
    | (.throw e, w') => (.throw e, w')
    | (.ub u, w') => (.ub u, w')

/-- `setSingleAttribute<T>` (session.h:141-148) for the types of eip_types.h. -/
def setSingleAttributeOf (t : EipType) (classId instanceId attributeId : UInt8) (v : t.Val) : Prog World Unit :=
  setSingleAttributeSerializable classId instanceId attributeId
    (some ⟨(t.store v).length, Writer.writeBuffer (t.store v), none⟩)

end Session
end Eip
