import Verif.Model.Wired
import Verif.Spec.Session
/-
A device that says nothing.
-/
namespace Eip.Spec
open Eip

/-- Nothing arrives from the network: there are only the calls of the session. -/
def NothingArrives (as : List NetAct) : Prop := ∀ a ∈ as, ∃ ev, a = .call ev

/-- Is it a receive? -/
def isReceive : Ev → Bool
  | .received .. => true
  | _ => false

end Eip.Spec
