import Verif.Model.Basic
/-
serialization/reader.h, buffer_reader.h, stream_reader.h
-/
namespace Eip

/-- `BufferReader` (serialization/buffer_reader.h:45-140): `rest` is what `buf_` still points to (line 138),
`byteCount` is `byte_count_` (line 139). -/
structure BufferReader where
  rest : Bytes
  byteCount : Nat
  deriving DecidableEq, Repr

/-- `BufferReader(mutable_buffer buf)` (serialization/buffer_reader.h:53). -/
def BufferReader.new (buf : Bytes) : BufferReader := ⟨buf, 0⟩

/-- `BufferReader::readBuffer(size_t n)` (serialization/buffer_reader.h:83-93); also the copying
`readBuffer(mutable_buffer)` and both `readBytes` (lines 61-75, 102-112), which take the same branch on
the same condition with the same message. Returns the bytes read. -/
def BufferReader.readBuffer (n : Nat) : Prog BufferReader Bytes := fun r =>
  if r.rest.length < n then
    (.throw (lengthError "Buffer too small to deserialize value"), r)
  else
    (.ok (r.rest.take n), ⟨r.rest.drop n, r.byteCount + n⟩)

/-- `BufferReader::skip` (serialization/buffer_reader.h:128-136). -/
def BufferReader.skip (n : Nat) : Prog BufferReader Unit := fun r =>
  if r.rest.length < n then
    (.throw (lengthError "End of buffer reached skipping forward"), r)
  else
    (.ok (), ⟨r.rest.drop n, r.byteCount + n⟩)

/-- `BufferReader::getByteCount` (serialization/buffer_reader.h:118-121). -/
def BufferReader.getByteCount (r : BufferReader) : Nat := r.byteCount

/-- `StreamReader` (serialization/stream_reader.h:49-98) over an `istringstream`-like stream with fixed
contents `data`, read position `pos`, and `good` false once failbit is set. `junk` stands for the contents
of freshly allocated memory (an arbitrary byte; only visible after a short read into `new char[n]`,
serializable_buffer.h:133). Simplification: no other thread or `rdbuf` access touches the stream. -/
structure StreamReader where
  data : Bytes
  pos : Nat
  good : Bool
  junk : UInt8
  deriving DecidableEq, Repr

/-- `istream::read` as called by `StreamReader::readBytes(void* buf, size_t n)`
(serialization/stream_reader.h:64-67) on a target whose bytes are `old` (so `n = old.length`): a failed
stream stores nothing; a short read stores what is there and sets eofbit and failbit; nothing is thrown.
Returns the target's new bytes. -/
def StreamReader.readInto (old : Bytes) : Prog StreamReader Bytes := fun r =>
  if r.good = false then (.ok old, r)
  else
    let avail := r.data.drop r.pos
    if avail.length < old.length then
      (.ok (avail ++ old.drop avail.length), { r with pos := r.data.length, good := false })
    else
      (.ok (avail.take old.length), { r with pos := r.pos + old.length })

/-- Did the last read of `n` bytes store all of them? Used to tell apart initialised and indeterminate
locals. -/
def StreamReader.canRead (n : Nat) (r : StreamReader) : Bool :=
  r.good && decide (n ≤ (r.data.drop r.pos).length)

/-- `StreamReader::getByteCount` (serialization/stream_reader.h:83-86): `tellg()` is -1 on a failed
stream, converted to `size_t`. -/
def StreamReader.getByteCount (r : StreamReader) : Nat :=
  if r.good then r.pos else 2 ^ 64 - 1

/-- `StreamReader::skip` (serialization/stream_reader.h:92-95): `seekg(n, cur)`; seeking past the end of
a string stream sets failbit and does not move. -/
def StreamReader.skip (n : Nat) : Prog StreamReader Unit := fun r =>
  if r.good = false then (.ok (), r)
  else if r.pos + n ≤ r.data.length then (.ok (), { r with pos := r.pos + n })
  else (.ok (), { r with good := false })

/-- A `Reader&` (serialization/reader.h:42-83): one of the two implementations in the library. -/
inductive Reader
  | buffer (r : BufferReader)
  | stream (r : StreamReader)
  deriving DecidableEq, Repr

/-- `Reader::readBytes(void* buf, size_t n)` / `readBuffer(mutable_buffer)` (serialization/reader.h:63, 69)
into an existing object whose bytes are `old`. Returns the object's new bytes. -/
def Reader.readInto (old : Bytes) : Prog Reader Bytes := fun r =>
  match r with
  | .buffer br =>
    match BufferReader.readBuffer old.length br with
    | (x, br') => (x, .buffer br')
  | .stream sr =>
    match StreamReader.readInto old sr with
    | (x, sr') => (x, .stream sr')

/-- `Reader::read(v)` (serialization/reader.h:51-54) into an uninitialised local of `n` bytes that the caller
uses right afterwards: a short stream read leaves it indeterminate, and its use is undefined behaviour. -/
def Reader.readLocal (n : Nat) : Prog Reader Bytes := fun r =>
  match r with
  | .buffer br =>
    match BufferReader.readBuffer n br with
    | (x, br') => (x, .buffer br')
  | .stream sr =>
    if sr.canRead n then
      match StreamReader.readInto (List.replicate n 0) sr with
      | (x, sr') => (x, .stream sr')
    else
      match StreamReader.readInto (List.replicate n 0) sr with
      | (_, sr') => (.ub .indeterminate, .stream sr')

/-- `Reader::skip` (serialization/reader.h:82), virtual dispatch. -/
def Reader.skip (n : Nat) : Prog Reader Unit := fun r =>
  match r with
  | .buffer br => match BufferReader.skip n br with | (x, br') => (x, .buffer br')
  | .stream sr => match StreamReader.skip n sr with | (x, sr') => (x, .stream sr')

/-- `Reader::getByteCount` (serialization/reader.h:75), virtual dispatch. -/
def Reader.getByteCount : Reader → Nat
  | .buffer r => r.getByteCount
  | .stream r => r.getByteCount

/-! ### Reading members of an object under deserialization

A `deserialize` function acts on the pair of the object and the reader. -/

/-- Run a reader operation inside a `deserialize` function. -/
def onReader {δ α : Type} (p : Prog Reader α) : Prog (δ × Reader) α :=
  Prog.zoom (·.2) (fun r s => (s.1, r)) p

/-- The object under deserialization. -/
def getObj {δ : Type} : Prog (δ × Reader) δ := fun s => (.ok s.1, s)

/-- Update the object under deserialization. -/
def modifyObj {δ : Type} (f : δ → δ) : Prog (δ × Reader) Unit := fun s => (.ok (), (f s.1, s.2))

/-- Run a sub-object's `deserialize`. -/
def onPart {δ τ α : Type} (getter : δ → τ) (setter : τ → δ → δ) (p : Prog (τ × Reader) α) :
    Prog (δ × Reader) α :=
  Prog.zoom (fun s => (getter s.1, s.2)) (fun t s => (setter t.1 s.1, t.2)) p

/-- Run the `deserialize` of a local object that starts as `t` and return the object; if it throws, the local goes
out of scope (src/cpf_packet.cpp:63-65, src/rr_data.cpp:54-55, src/encap_packet.cpp:66-67). -/
def parseFresh {δ τ : Type} (t : τ) (p : Prog (τ × Reader) Unit) : Prog (δ × Reader) τ := fun (d, r) =>
  match p (t, r) with
  | (.ok (), (t', r')) => (.ok t', (d, r'))
  | (.throw e, (_, r')) => (.throw e, (d, r'))
  | (.ub u, (_, r')) => (.ub u, (d, r'))

/-- `reader.read(member)` (serialization/reader.h:51-54) for a member of a plain type. -/
def readMember {δ τ : Type} (c : Codec τ) (getter : δ → τ) (setter : τ → δ → δ) :
    Prog (δ × Reader) Unit := do
  let o ← getObj
  let bs ← onReader (Reader.readInto (c.enc (getter o)))
  modifyObj (setter (c.dec bs))

/-- `EIP_USINT v; reader.read(v);` for a local. -/
def readLocal8 {δ : Type} : Prog (δ × Reader) UInt8 := do
  let bs ← onReader (Reader.readLocal 1)
  pure (de8 bs)

/-- `EIP_UINT v; reader.read(v);` for a local. -/
def readLocal16 {δ : Type} : Prog (δ × Reader) UInt16 := do
  let bs ← onReader (Reader.readLocal 2)
  pure (de16 bs)

end Eip
