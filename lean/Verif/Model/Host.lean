import Verif.Model.Writer
/-
The byte order of the host. `Writer::write` copies the memory of its argument (serialization/writer.h:50-53,
`writeBytes(&v, sizeof(v))`), so what is written depends on how the host stores integers. The rest of the model is
for little-endian hosts; this file is the only part that looks at the others.
-/
namespace Eip

/-- Memory of an unsigned integer `v` of `n` bytes: at offset `i` a little-endian host stores digit `i` in base
256, a big-endian host digit `n - 1 - i`. -/
def hostBytes (bigEndian : Bool) (n v : Nat) : Bytes :=
  (List.range n).map fun i => UInt8.ofNat (v / 256 ^ (if bigEndian then n - 1 - i else i))

/-- `Writer::write(const T& v)` (serialization/writer.h:50-53) for an unsigned integer type of `n` bytes. -/
def Writer.writeOn (bigEndian : Bool) (n v : Nat) : Prog Writer Unit := Writer.writeBuffer (hostBytes bigEndian n v)

/-- `Reader::read(T& v)` (serialization/reader.h:51-54): the value of an `n`-byte integer whose memory is `bs`. -/
def hostValue (bigEndian : Bool) (bs : Bytes) : Nat :=
  if bigEndian then bs.foldl (fun acc b => acc * 256 + b.toNat) 0
  else bs.foldr (fun b acc => b.toNat + 256 * acc) 0

end Eip
