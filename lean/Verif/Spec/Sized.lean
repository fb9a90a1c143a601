import Verif.Spec.Wire
/-
Vocabulary of the sized parses and of the reported length of parsed objects (C85 - C87).
-/
namespace Eip.Spec
open Eip

/-- After a successful parse from a buffer the object reports exactly the number of bytes it was parsed from. -/
def ReportsConsumed {δ : Type} (p : Prog (δ × Reader) Unit) (length : δ → Nat) : Prop :=
  ∀ (d d' : δ) (input : Bytes) (c : Nat) (r : Reader),
    p (d, .buffer ⟨input, c⟩) = (.ok (), (d', r)) →
    ∃ used tail, input = used ++ tail ∧ r = .buffer ⟨tail, c + used.length⟩ ∧ length d' = used.length

end Eip.Spec
