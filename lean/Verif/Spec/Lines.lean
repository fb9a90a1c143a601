import Verif.Model.Lines
import Verif.Spec.Log
/-
What the lines of the log should be.
-/
namespace Eip.Spec
open Eip

/-- The value of a digit character: 0-9 and A-F. -/
def digitValue (c : UInt8) : Option Nat :=
  if 48 ≤ c.toNat ∧ c.toNat ≤ 57 then some (c.toNat - 48)
  else if 65 ≤ c.toNat ∧ c.toNat ≤ 70 then some (c.toNat - 55)
  else none

/-- `bs` are digits to this base, most significant first, and their value is `n`. -/
inductive ReadsAs (base : Nat) : Bytes → Nat → Prop
  | nil : ReadsAs base [] 0
  | snoc {bs : Bytes} {n : Nat} {c : UInt8} {d : Nat} (h : ReadsAs base bs n) (hc : digitValue c = some d) (hd : d < base) :
      ReadsAs base (bs ++ [c]) (base * n + d)

/-- `bs` is the usual way to write `n`: at least one digit, and no zero in front of others. -/
def Numeral (base : Nat) (bs : Bytes) (n : Nat) : Prop :=
  ReadsAs base bs n ∧ bs ≠ [] ∧ (bs.head? = some 48 → bs = [48])

/-- The message reaches the output handler whole, whatever the calling convention leaves open. -/
def Whole (m : LogMsg) : Prop := ∀ f, ∃ shown, m.text f = some shown ∧ m.line f = some (shown.flatMap Shown.bytes)

/-- An object to be sent whose exceptions have texts of at most `n` bytes, as far as the session looks at them. -/
def Terse (n : Nat) : Op → Prop
  | .setAttribute _ _ _ (some d) => ∀ w e w', d.serialize w = (.throw e, w') →
      e.kind.isA .logicError = true → e.what.utf8ByteSize ≤ n
  | _ => True

/-- How grave a message is; what is printed is always seen. -/
def gravity : Level → Nat
  | .debug => 0
  | .inform => 1
  | .warn => 2
  | .error => 3
  | .print => 5

/-- How grave a message must be to be seen. -/
def demand : Threshold → Nat
  | .debug => 0
  | .inform => 1
  | .warn => 2
  | .error => 3
  | .none => 4

end Eip.Spec
