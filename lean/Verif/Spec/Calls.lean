import Verif.Spec.Wire
/-
Sequences of calls on readers, writers and paths, and what they should do, stated without the model's functions.
-/
namespace Eip.Spec
open Eip

/-- Two lists of the same length whose elements are related one by one. -/
inductive Pointwise {α β : Type} (R : α → β → Prop) : List α → List β → Prop
  | nil : Pointwise R [] []
  | cons {a b as bs} : R a b → Pointwise R as bs → Pointwise R (a :: as) (b :: bs)

/-- A call on a reader. -/
inductive ReadCall
  | read (n : Nat)
  | skip (n : Nat)
  deriving DecidableEq, Repr

/-- Number of bytes the call asks for. -/
def ReadCall.size : ReadCall → Nat
  | .read n => n
  | .skip n => n

/-- What a call delivers: bytes, or nothing for a skip; `none` if it is refused with `length_error`. -/
def ReadCall.expected (buf : Bytes) (pos : Nat) : ReadCall → Option Bytes
  | .read n => if pos + n ≤ buf.length then some ((buf.drop pos).take n) else none
  | .skip n => if pos + n ≤ buf.length then some [] else none

/-- The position after a call. -/
def ReadCall.advance (buf : Bytes) (pos : Nat) (c : ReadCall) : Nat :=
  if pos + c.size ≤ buf.length then pos + c.size else pos

/-- Results of a sequence of calls from position `pos`, and the final position. -/
def expectedReads (buf : Bytes) : Nat → List ReadCall → List (Option Bytes) × Nat
  | pos, [] => ([], pos)
  | pos, c :: cs =>
    let rest := expectedReads buf (c.advance buf pos) cs
    (c.expected buf pos :: rest.1, rest.2)

/-- The chunks of a sequence of writes into `room` bytes that are accepted. -/
def acceptedWrites : Nat → List Bytes → List Bytes
  | _, [] => []
  | room, c :: cs => if c.length ≤ room then c :: acceptedWrites (room - c.length) cs else acceptedWrites room cs

/-- A call on a stream reader: read into an object that has these bytes, or skip forward. -/
inductive StreamCall
  | read (old : Bytes)
  | skip (n : Nat)
  deriving DecidableEq, Repr

/-- Number of bytes the call asks for. -/
def StreamCall.size : StreamCall → Nat
  | .read old => old.length
  | .skip n => n

/-- The same call on a buffer. -/
def StreamCall.onBuffer : StreamCall → ReadCall
  | .read old => .read old.length
  | .skip n => .skip n

/-- What a call delivers if it has no effect at all. -/
def StreamCall.untouched : StreamCall → Bytes
  | .read old => old
  | .skip _ => []

/-- Number of bytes a sequence of calls asks for. -/
def totalSize (calls : List StreamCall) : Nat := (calls.map StreamCall.size).sum

/-- A call on a path. -/
inductive PathCall
  | add (s : Segment)
  | reset
  | setPad (pad : Bool)
  deriving DecidableEq, Repr

/-- The segments added since the last reset. -/
def segmentsAfter : List PathCall → List Segment → List Segment
  | [], segs => segs
  | .add s :: cs, segs => segmentsAfter cs (segs ++ [s])
  | .reset :: cs, _ => segmentsAfter cs []
  | .setPad _ :: cs, segs => segmentsAfter cs segs

/-- The pad setting after the calls. -/
def padAfter : List PathCall → Bool → Bool
  | [], pad => pad
  | .setPad pad :: cs, _ => padAfter cs pad
  | .add _ :: cs, pad => padAfter cs pad
  | .reset :: cs, pad => padAfter cs pad

/-- A path object that holds exactly these segments. -/
def PathIs (p : Path) (pad : Bool) (segs : List Segment) : Prop :=
  p.padAfterLength = pad ∧ p.buf = (segs.map Segment.bytes).flatten

/-- Items with the given types and data. -/
def ItemsAre (items : List CPFItem) (l : List (UInt16 × Bytes)) : Prop :=
  Pointwise (fun i x => i.itemType = x.1 ∧ EncodesOpt i.data x.2) items l

/-- `p` accepts a buffer only by consuming a prefix of it, and does the same on that prefix followed by anything. -/
def ConsumesPrefix {δ α : Type} (p : Prog (δ × Reader) α) : Prop :=
  ∀ (d d' : δ) (x : α) (input : Bytes) (c : Nat) (r' : Reader),
    p (d, .buffer ⟨input, c⟩) = (.ok x, (d', r')) →
    ∃ used tail, input = used ++ tail ∧ r' = .buffer ⟨tail, c + used.length⟩ ∧
      ∀ tail', p (d, .buffer ⟨used ++ tail', c⟩) = (.ok x, (d', .buffer ⟨tail', c + used.length⟩))

/-- What `p` does on a buffer it also does on a stream with the same remaining bytes: same result, same object, same
position. -/
def StreamAgrees {δ α : Type} (p : Prog (δ × Reader) α) : Prop :=
  ∀ (d d' : δ) (x : α) (input before tail : Bytes) (junk : UInt8) (c' : Nat),
    p (d, .buffer ⟨input, before.length⟩) = (.ok x, (d', .buffer ⟨tail, c'⟩)) →
    p (d, .stream ⟨before ++ input, before.length, true, junk⟩)
      = (.ok x, (d', .stream ⟨before ++ input, c', true, junk⟩))

/-- A result that is normal or one of the two documented exception kinds. -/
def OkOrLogic {α : Type} : Res α → Prop
  | .ok _ => True
  | .throw e => e.kind = .lengthError ∨ e.kind = .logicError
  | .ub _ => False

/-- `p` never runs into undefined behaviour on a byte buffer, and throws only the two documented exception kinds. -/
def NeverCrashes {δ α : Type} (p : Prog (δ × Reader) α) : Prop :=
  ∀ (d : δ) (input : Bytes) (c : Nat), OkOrLogic (p (d, .buffer ⟨input, c⟩)).1

end Eip.Spec
