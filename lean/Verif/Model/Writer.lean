import Verif.Model.Basic
/-
serialization/writer.h, buffer_writer.h, stream_writer.h
-/
namespace Eip

/-- `BufferWriter` (serialization/buffer_writer.h:44-98). The memory it was built on is `written ++ rest`:
`rest` is the part `buf_` still points to (line 96), `written` the part before it. `byteCount` is
`byte_count_` (line 97). -/
structure BufferWriter where
  written : Bytes
  rest : Bytes
  byteCount : Nat
  deriving DecidableEq, Repr

/-- `BufferWriter(mutable_buffer buf)` (serialization/buffer_writer.h:52). -/
def BufferWriter.new (buf : Bytes) : BufferWriter := ⟨[], buf, 0⟩

/-- Current contents of the whole memory block the writer was built on. -/
def BufferWriter.memory (w : BufferWriter) : Bytes := w.written ++ w.rest

/-- `BufferWriter::writeBuffer(const_buffer b)` (serialization/buffer_writer.h:74-84). -/
def BufferWriter.writeBuffer (b : Bytes) : Prog BufferWriter Unit := fun w =>
  if w.rest.length < b.length then
    (.throw (lengthError "Buffer to small to serialize value"), w)
  else
    (.ok (), { written := w.written ++ b,
               rest := w.rest.drop b.length,
               byteCount := w.byteCount + b.length })

/-- `BufferWriter::writeBytes(const void* p, size_t n)` (serialization/buffer_writer.h:61-64). -/
def BufferWriter.writeBytes (b : Bytes) : Prog BufferWriter Unit := BufferWriter.writeBuffer b

/-- `BufferWriter::getByteCount` (serialization/buffer_writer.h:90-93). -/
def BufferWriter.getByteCount (w : BufferWriter) : Nat := w.byteCount

/-- `StreamWriter` (serialization/stream_writer.h:47-97): the output stream `*osp_` with the bytes before its position, the
number of bytes it still takes (`none`: any number; a file on a full disk or a stream over fixed memory has an end), and
`good` false once badbit is set. Simplifications: the stream is not told to throw (`ios::exceptions`), and it knows its
position. -/
structure StreamWriter where
  out : Bytes
  room : Option Nat
  good : Bool
  deriving DecidableEq, Repr

/-- `StreamWriter(osp)` (serialization/stream_writer.h:55) with a new stream in memory, as the `ostringstream` of the library's
own tests. -/
def StreamWriter.new : StreamWriter := ⟨[], none, true⟩

/-- `StreamWriter::writeBuffer` / `writeBytes` / `write` (serialization/stream_writer.h:61-84): `ostream::write`. On a stream
that has failed it does nothing; if the stream takes only some of the bytes, badbit is set; nothing is thrown. -/
def StreamWriter.writeBuffer (b : Bytes) : Prog StreamWriter Unit := fun w =>
  if w.good = false then (.ok (), w)
  else match w.room with
    | none => (.ok (), { w with out := w.out ++ b })
    | some n =>
      if b.length ≤ n then (.ok (), { w with out := w.out ++ b, room := some (n - b.length) })
      else (.ok (), ⟨w.out ++ b.take n, some 0, false⟩)

/-- `StreamWriter::getByteCount` (serialization/stream_writer.h:90-93): `tellp()` is -1 on a failed stream, converted to
`size_t`. -/
def StreamWriter.getByteCount (w : StreamWriter) : Nat :=
  if w.good then w.out.length else 2 ^ 64 - 1

/-- A `Writer&` (serialization/writer.h:41-76): one of the two implementations in the library. -/
inductive Writer
  | buffer (w : BufferWriter)
  | stream (w : StreamWriter)
  deriving DecidableEq, Repr

/-- `Writer::writeBuffer` / `Writer::writeBytes` (serialization/writer.h:61, 69), virtual dispatch. -/
def Writer.writeBuffer (b : Bytes) : Prog Writer Unit := fun w =>
  match w with
  | .buffer bw => match BufferWriter.writeBuffer b bw with | (r, bw') => (r, .buffer bw')
  | .stream sw => match StreamWriter.writeBuffer b sw with | (r, sw') => (r, .stream sw')

/-- `Writer::getByteCount` (serialization/writer.h:75), virtual dispatch. -/
def Writer.getByteCount : Writer → Nat
  | .buffer w => w.getByteCount
  | .stream w => w.getByteCount

/-- `Writer::write(const EIP_USINT&)` (serialization/writer.h:50-53). -/
def Writer.write8 (v : UInt8) : Prog Writer Unit := Writer.writeBuffer (le8 v)
/-- `Writer::write(const EIP_UINT&)` (serialization/writer.h:50-53). -/
def Writer.write16 (v : UInt16) : Prog Writer Unit := Writer.writeBuffer (le16 v)
/-- `Writer::write(const EIP_UDINT&)` (serialization/writer.h:50-53). -/
def Writer.write32 (v : UInt32) : Prog Writer Unit := Writer.writeBuffer (le32 v)

end Eip
