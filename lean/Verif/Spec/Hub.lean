import Verif.Model.Hub
/-
Words for scanners that share an io_service (C133).
-/
namespace Eip.Spec
open Eip

/-- The mail for scanner `i`, in the order it comes in. -/
def mailFor (i : Nat) (mail : List (Nat × Mail)) : List Mail := (mail.filter (fun p => p.1 == i)).map (·.2)

/-- Scanner `i` exists and is in this state. -/
def Hub.Holds (h : Hub) (i : Nat) (s : LanScanner) : Prop := h.scanners[i]? = some (some s)

/-- No scanner of the service other than `i` waits for mail. -/
def Hub.Alone (h : Hub) (i : Nat) : Prop := ∀ j s, j ≠ i → Hub.Holds h j s → s.scanner.receives = 0

end Eip.Spec
