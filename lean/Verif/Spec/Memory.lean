import Verif.Model.Refs
/-
Obligations of the user of raw buffers (C66), and the memory behind parsed objects (C59, C67).
-/
namespace Eip.Spec

/-- Block `b` is `allocated_buffer_` of some existing raw buffer. -/
def Owned (m : Mem) (b : Nat) : Prop := ∃ (x : Nat) (sb : SBuf), m.bufs[x]? = some (some sb) ∧ sb.allocated = some b

/-- Some existing raw buffer refers to bytes of block `b`. -/
def Used (m : Mem) (b : Nat) : Prop :=
  ∃ (x : Nat) (sb : SBuf), m.bufs[x]? = some (some sb) ∧ sb.data.len ≠ 0 ∧ sb.data.block = b

/-- A reference to live memory. -/
def Readable (m : Mem) (r : Ref) : Prop := (m.heap.contents r).isSome

/-- A reference a user may hand to a raw buffer: live memory that is not another raw buffer's allocation. -/
def Lendable (m : Mem) (r : Ref) : Prop := Readable m r ∧ ¬ Owned m r.block

/-- Existing raw buffer `x` has no allocation of its own. -/
def Borrows (m : Mem) (x : Nat) : Prop := ∀ sb, m.bufs[x]? = some (some sb) → sb.allocated = none

/-- What a careful user observes before each operation: references handed over are to live memory, memory is not freed
while a raw buffer owns or refers to it, and two further rules the class does not document: a raw buffer that has
allocated memory is not copied, and does not get a `BufferReader` with too few bytes. -/
def Careful (m : Mem) : BufOp → Prop
  | .alloc _ | .new | .read _ | .destroy _ | .parseStream .. | .fillStream .. => True
  | .release b => (∃ bs, m.heap.blocks[b]? = some (some bs)) ∧ ¬ Owned m b ∧ ¬ Used m b
  | .newOn r | .assignRef _ r | .setData _ r => Lendable m r
  | .copy y | .assign _ y => Borrows m y
  | .parse x n r => Lendable m r ∧ (n ≤ r.len ∨ Borrows m x)
  | .fill _ r => Readable m r

/-- A careful user throughout a run. -/
def CarefulRun : List BufOp → Mem → Prop
  | [], _ => True
  | op :: ops, m => Careful m op ∧ CarefulRun ops (op.run m).2

/-- What any correct user observes: references handed over are to live memory, and memory is not freed while a raw
buffer refers to it. -/
def Correct (m : Mem) : BufOp → Prop
  | .release b => (∃ bs, m.heap.blocks[b]? = some (some bs)) ∧ ¬ Owned m b ∧ ¬ Used m b
  | .newOn r | .assignRef _ r | .setData _ r | .parse _ _ r | .fill _ r => Readable m r
  | _ => True

/-- A correct user throughout a run. -/
def CorrectRun : List BufOp → Mem → Prop
  | [], _ => True
  | op :: ops, m => Correct m op ∧ CorrectRun ops (op.run m).2

/-- The operation does not fill a buffer of another size from a stream. -/
def NoStreamParse : BufOp → Prop
  | .parseStream .. => False
  | _ => True

/-- The operation does not assign one raw buffer to another that has memory of its own. -/
def Thrifty (m : Mem) : BufOp → Prop
  | .assign x _ => Borrows m x
  | _ => True

/-- A careful user throughout a run who also never assigns to a raw buffer that has memory of its own. -/
def ThriftyRun : List BufOp → Mem → Prop
  | [], _ => True
  | op :: ops, m => Careful m op ∧ Thrifty m op ∧ ThriftyRun ops (op.run m).2

/-- Number of blocks of memory that are allocated. -/
def liveBlocks (m : Mem) : Nat := m.heap.blocks.countP Option.isSome

/-- Every raw buffer has been destroyed. -/
def AllDestroyed (m : Mem) : Prop := ∀ (x : Nat) (sb : SBuf), m.bufs[x]? ≠ some (some sb)

/-- How often the user allocates memory. -/
def allocations (ops : List BufOp) : Nat := ops.countP (fun | .alloc _ => true | _ => false)

/-- How often the user frees memory. -/
def releases (ops : List BufOp) : Nat := ops.countP (fun | .release _ => true | _ => false)

/-- The receive buffer after a socket call: a successful receive overwrites its beginning. -/
def overwrite (buf : Bytes) : Ev → Bytes
  | .received _ data true => data ++ buf.drop data.length
  | _ => buf

/-- Types and data lengths of items. -/
def shape (l : List (UInt16 × Bytes)) : List (UInt16 × Nat) := l.map (fun i => (i.1, i.2.length))

/-- Where the data of consecutive items with the given types and data lengths lies, when the first item starts at
`off`: after the item's type and length, no reference for an empty item. -/
def layout : Nat → List (UInt16 × Nat) → List ItemRef
  | _, [] => []
  | off, (t, n) :: l => ⟨t, if n = 0 then none else some ⟨off + 4, n⟩⟩ :: layout (off + 4 + n) l

end Eip.Spec

namespace Eip

/-- The memory references in a parsed packet: one for each item that has data. -/
def PacketRef.slices (p : PacketRef) : List Slice := p.items.filterMap (·.data)

/-- The memory references in a parsed encapsulation packet: its payload. -/
def EncapRef.slices (p : EncapRef) : List Slice := p.payload.toList

/-- The memory references in a parsed response: additional status and response data. -/
def ResponseRef.slices (p : ResponseRef) : List Slice := p.additionalStatus.toList ++ p.responseData.toList

end Eip
