import Verif.Model.Serializable
/-
serialization/serializable_buffer.h at the level of memory: which memory a raw buffer refers to, which memory it owns,
and when that memory is freed.
-/
namespace Eip

/-- Dynamic memory: block `i` is the `i`th allocation ever made, `none` once it has been freed. Block numbers are
never reused, so an access to a freed block is always recognised as such. -/
structure Heap where
  blocks : List (Option Bytes)
  deriving DecidableEq, Repr

/-- A `boost::asio::mutable_buffer` (used in serialization/serializable_buffer.h:160): `len` bytes from offset `off` of
a block. `mutable_buffer(NULL, 0)` is any reference of length zero; nothing is ever accessed through it. -/
structure Ref where
  block : Nat
  off : Nat
  len : Nat
  deriving DecidableEq, Repr

/-- `mutable_buffer(NULL, 0)` (serialization/serializable_buffer.h:53, 64). -/
def Ref.null : Ref := ⟨0, 0, 0⟩

namespace Heap

/-- The bytes a reference refers to; `none` if it is not wholly inside one live block. -/
def contents (h : Heap) (r : Ref) : Option Bytes :=
  if r.len = 0 then some []
  else match h.blocks[r.block]? with
    | some (some bs) => if r.off + r.len ≤ bs.length then some ((bs.drop r.off).take r.len) else none
    | _ => none

/-- `new char[n]` (serialization/serializable_buffer.h:133) or an allocation by the caller, with the given contents;
returns the block. -/
def alloc (bs : Bytes) : Prog Heap Nat := fun h => (.ok h.blocks.length, ⟨h.blocks ++ [some bs]⟩)

/-- `delete[] p` (serialization/serializable_buffer.h:170) or a release by the caller. -/
def free (b : Nat) : Prog Heap Unit := fun h =>
  match h.blocks[b]? with
  | some (some _) => (.ok (), ⟨h.blocks.set b none⟩)
  | _ => (.ub .doubleFree, h)

/-- Read the memory a buffer refers to, as `Writer::writeBuffer` does (serialization/serializable_buffer.h:105). -/
def load (r : Ref) : Prog Heap Bytes := fun h =>
  match h.contents r with
  | some bs => (.ok bs, h)
  | none => (.ub .danglingAccess, h)

/-- Write bytes to the start of the memory a buffer refers to, as `Reader::readBuffer` does
(serialization/serializable_buffer.h:136, 150). Callers give at most `r.len` bytes. -/
def store (r : Ref) (bs : Bytes) : Prog Heap Unit := fun h =>
  if bs = [] then (.ok (), h)
  else match h.blocks[r.block]? with
    | some (some old) =>
      if r.off + bs.length ≤ old.length then
        (.ok (), ⟨h.blocks.set r.block (some (old.take r.off ++ bs ++ old.drop (r.off + bs.length)))⟩)
      else (.ub .danglingAccess, h)
    | _ => (.ub .danglingAccess, h)

end Heap

/-- The members of a `SerializableBuffer` (serialization/serializable_buffer.h:160-161): `data_` and
`allocated_buffer_` (null is `none`). -/
structure SBuf where
  data : Ref
  allocated : Option Nat
  deriving DecidableEq, Repr

/-- Memory with the `SerializableBuffer` objects in it: object `i` is the `i`th ever constructed, `none` once it has
been destroyed. -/
structure Mem where
  heap : Heap
  bufs : List (Option SBuf)
  deriving DecidableEq, Repr

/-- Nothing allocated yet. -/
def Mem.empty : Mem := ⟨⟨[]⟩, []⟩

namespace Mem

/-- Run a memory operation. -/
def onHeap {α : Type} (p : Prog Heap α) : Prog Mem α :=
  Prog.zoom (·.heap) (fun h m => { m with heap := h }) p

/-- Construct an object with the given members. -/
def push (sb : SBuf) : Prog Mem Unit := Prog.modify (fun m => { m with bufs := m.bufs ++ [some sb] })

/-- Store the members of object `x`. -/
def setBuf (x : Nat) (sb : SBuf) : Prog Mem Unit :=
  Prog.modify (fun m => { m with bufs := m.bufs.set x (some sb) })

/-- `deleteAllocatedBuffer` (serialization/serializable_buffer.h:166-173) on object `x` with members `sb`; returns the
new members. -/
def deleteAllocated (x : Nat) (sb : SBuf) : Prog Mem SBuf :=
  match sb.allocated with
  | none => pure sb
  | some b => do
    onHeap (Heap.free b)
    setBuf x { sb with allocated := none }
    pure { sb with allocated := none }

/-- Run an operation on object `x`. A call on an object that was never constructed or is already destroyed is not part
of any program considered here; it does nothing, so that a list of operations containing it behaves like the list without
it. -/
def withBuf (x : Nat) (f : SBuf → Prog Mem Unit) : Prog Mem Unit := fun m =>
  match m.bufs[x]? with
  | some (some sb) => f sb m
  | _ => (.ok (), m)

end Mem

/-- Operations on raw buffers and on the memory of their users. -/
inductive BufOp
  /-- the user allocates memory -/
  | alloc (bs : Bytes)
  /-- the user frees memory -/
  | release (b : Nat)
  /-- `SerializableBuffer()` (serialization/serializable_buffer.h:53) -/
  | new
  /-- `SerializableBuffer(mutable_buffer)` (serialization/serializable_buffer.h:59) -/
  | newOn (r : Ref)
  /-- the implicit copy constructor -/
  | copy (x : Nat)
  /-- `(*dst_sb) = (*src_sb)` (src/copy_serializable.cpp:43): the implicit copy assignment -/
  | assign (x y : Nat)
  /-- `operator=(mutable_buffer)` (serialization/serializable_buffer.h:154-157) -/
  | assignRef (x : Nat) (r : Ref)
  /-- `setData(mutable_buffer)` (serialization/serializable_buffer.h:89-95) -/
  | setData (x : Nat) (r : Ref)
  /-- `deserialize(reader, n)` with a `BufferReader` that has the buffer `r` left -/
  | parse (x n : Nat) (r : Ref)
  /-- `deserialize(reader, n)` with a stream that has `input` left; fresh memory contains `junk` -/
  | parseStream (x n : Nat) (junk : UInt8) (input : Bytes)
  /-- `deserialize(reader)` with a `BufferReader` that has the buffer `r` left -/
  | fill (x : Nat) (r : Ref)
  /-- `deserialize(reader)` with a stream that has `input` left -/
  | fillStream (x : Nat) (input : Bytes)
  /-- `serialize(writer)` with enough room (serialization/serializable_buffer.h:103-107) -/
  | read (x : Nat)
  /-- the destructor (serialization/serializable_buffer.h:61-65) -/
  | destroy (x : Nat)
  deriving Repr

/-- One operation. -/
def BufOp.run : BufOp → Prog Mem Unit
  | .alloc bs => do
    let _ ← Mem.onHeap (Heap.alloc bs)
  | .release b => Mem.onHeap (Heap.free b)
  | .new => Mem.push ⟨Ref.null, none⟩
  | .newOn r => Mem.push ⟨r, none⟩
  | .copy x => Mem.withBuf x (fun sb => Mem.push sb)
  | .assign x y => Mem.withBuf y (fun src => Mem.withBuf x (fun _ => Mem.setBuf x src))
  | .assignRef x r => Mem.withBuf x (fun sb => Mem.setBuf x { sb with data := r })
  -- serialization/serializable_buffer.h:93-94
  | .setData x r => Mem.withBuf x (fun sb => do
    let sb ← Mem.deleteAllocated x sb
    Mem.setBuf x { sb with data := r })
  -- serialization/serializable_buffer.h:124-125, serialization/buffer_reader.h:83-93
  | .parse x n r => Mem.withBuf x (fun sb => do
    let sb ← Mem.deleteAllocated x sb
    if r.len < n then Prog.raise (lengthError "Buffer too small to deserialize value")
    else Mem.setBuf x { sb with data := ⟨r.block, r.off, n⟩ })
  -- serialization/serializable_buffer.h:129-136
  | .parseStream x n junk input => Mem.withBuf x (fun sb => do
    if n ≠ sb.data.len then
      let sb ← Mem.deleteAllocated x sb
      let b ← Mem.onHeap (Heap.alloc (List.replicate n junk))
      Mem.setBuf x { sb with allocated := some b, data := ⟨b, 0, n⟩ }
      Mem.onHeap (Heap.store ⟨b, 0, n⟩ (input.take n))
    else Mem.onHeap (Heap.store sb.data (input.take n)))
  -- serialization/serializable_buffer.h:150, serialization/buffer_reader.h:102-112
  | .fill x r => Mem.withBuf x (fun sb => do
    if r.len < sb.data.len then Prog.raise (lengthError "Buffer too small to deserialize value")
    else
      let bs ← Mem.onHeap (Heap.load ⟨r.block, r.off, sb.data.len⟩)
      Mem.onHeap (Heap.store sb.data bs))
  -- serialization/serializable_buffer.h:150, serialization/stream_reader.h:64-77
  | .fillStream x input => Mem.withBuf x (fun sb => Mem.onHeap (Heap.store sb.data (input.take sb.data.len)))
  | .read x => Mem.withBuf x (fun sb => do
    let _ ← Mem.onHeap (Heap.load sb.data))
  | .destroy x => Mem.withBuf x (fun sb => do
    let _ ← Mem.deleteAllocated x sb
    Prog.modify (fun m => { m with bufs := m.bufs.set x none }))

/-- A sequence of operations: it goes on after exceptions and stops at undefined behaviour, which is returned. -/
def runBufOps : List BufOp → Mem → Option UB × Mem
  | [], m => (none, m)
  | op :: ops, m =>
    match op.run m with
    | (.ok _, m') => runBufOps ops m'
    | (.throw _, m') => runBufOps ops m'
    | (.ub u, m') => (some u, m')

end Eip
