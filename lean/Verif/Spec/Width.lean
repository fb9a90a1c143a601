import Verif.Model.Reader
/-
What fits a host with 32-bit addresses (C135).
-/
namespace Eip

/-- No more than the bytes a 32-bit host can address: what has been read and what is left. -/
def Reader.Small : Reader → Prop
  | .buffer r => r.byteCount + r.rest.length < 4294967296
  | .stream r => r.pos ≤ r.data.length ∧ r.data.length < 4294967296

end Eip
