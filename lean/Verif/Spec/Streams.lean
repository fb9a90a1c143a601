import Verif.Model.Serializable
/-
What it means to write exactly some bytes and to parse exactly some bytes. These predicates are the vocabulary
of the serialization properties; they only mention the two kinds of writer and reader.
-/
namespace Eip.Spec
open Eip

/-- An output stream that takes these bytes: it has not failed and there is room for them. -/
def HasRoom (w : StreamWriter) (bs : Bytes) : Prop := w.good = true ∧ ∀ n, w.room = some n → bs.length ≤ n

/-- An output stream after bytes were written to it: it has them at its end, or as many of them as there was room for, and
then it has failed; a stream that had failed before is as it was. -/
def appended (w : StreamWriter) (bs : Bytes) : StreamWriter :=
  match w.good, w.room with
  | false, _ => w
  | true, none => ⟨w.out ++ bs, none, true⟩
  | true, some n => ⟨w.out ++ bs.take n, some (n - bs.length), decide (bs.length ≤ n)⟩

/-- `p` writes exactly the bytes `bs`:
* into a buffer with room, they land right after what was written before, nothing else changes, and the byte
  count grows by their number;
* into a buffer without room, a `length_error` is thrown, and the memory block keeps its size and everything
  outside the writer's remaining window; inside the window only a prefix of `bs` may have been stored;
* into a stream, they are appended as far as it takes them; if it does not take them all, it has failed. Nothing is thrown.
  A stream that has failed takes nothing. -/
structure Writes (p : Prog Writer Unit) (bs : Bytes) : Prop where
  fits : ∀ w : BufferWriter, bs.length ≤ w.rest.length →
    p (.buffer w) = (.ok (), .buffer ⟨w.written ++ bs, w.rest.drop bs.length, w.byteCount + bs.length⟩)
  full : ∀ w : BufferWriter, w.rest.length < bs.length →
    ∃ (what : String) (w' : BufferWriter) (k : Nat),
      p (.buffer w) = (.throw (lengthError what), .buffer w') ∧ k ≤ w.rest.length ∧ k < bs.length ∧
      w'.memory = w.written ++ bs.take k ++ w.rest.drop k ∧ w'.byteCount = w.byteCount + k
  stream : ∀ w : StreamWriter, p (.stream w) = (.ok (), .stream (appended w bs))

/-- Started when the reader has delivered `c` bytes and the object is `d`, the deserializer `p` consumes exactly
the bytes `bs`, returns `x` and leaves the object `d'`:
* from a buffer that continues with `bs` (whatever follows), leaving what follows unread;
* from a stream that continues with `bs` (whatever follows);
* and when the buffer ends before the end of `bs`, it throws `length_error`. -/
structure ParsesAt {δ α : Type} (c : Nat) (p : Prog (δ × Reader) α) (d : δ) (bs : Bytes) (x : α) (d' : δ) :
    Prop where
  buffer : ∀ tail : Bytes,
    p (d, .buffer ⟨bs ++ tail, c⟩) = (.ok x, (d', .buffer ⟨tail, c + bs.length⟩))
  short : ∀ cut missing : Bytes, bs = cut ++ missing → missing ≠ [] →
    ∃ (what : String) (d1 : δ) (r1 : BufferReader),
      p (d, .buffer ⟨cut, c⟩) = (.throw (lengthError what), (d1, .buffer r1))
  stream : ∀ (before tail : Bytes) (junk : UInt8), before.length = c →
    p (d, .stream ⟨before ++ (bs ++ tail), c, true, junk⟩)
      = (.ok x, (d', .stream ⟨before ++ (bs ++ tail), c + bs.length, true, junk⟩))

/-- `ParsesAt` wherever the reader stands. -/
def Parses {δ α : Type} (p : Prog (δ × Reader) α) (d : δ) (bs : Bytes) (x : α) (d' : δ) : Prop :=
  ∀ c, ParsesAt c p d bs x d'

end Eip.Spec
