import Verif.Model.Serializable
/-
Parsing an object from bytes in memory.
-/
namespace Eip.Spec
open Eip

/-- The outcome of `d.deserialize(reader, n)` with a reader at the start of these bytes. -/
def parsed {δ : Type} (c : Class δ) (bytes : Bytes) (n : Nat) (d : δ) : Res Unit × δ :=
  ((c.deserializeLen δ id c.deserialize c.getLength n (d, .buffer ⟨bytes, 0⟩)).1,
    (c.deserializeLen δ id c.deserialize c.getLength n (d, .buffer ⟨bytes, 0⟩)).2.1)

end Eip.Spec
