import Verif.Spec.Log
/-
What the log should say about opening a session.
-/
namespace Eip.Spec
open Eip

/-- The messages of an `open` that got these bytes as a reply, before the reply is looked at. -/
def enrolling (bytes : Bytes) : List LogMsg :=
  [.resolving, .registering, .sendingCommand, .waiting, .receivedResponse (size bytes)]

/-- The warnings the data of a registration reply deserve: there should be four bytes. -/
def enrolledWarnings (payload : Bytes) : List LogMsg :=
  when (payload.length ≠ 4) (.registrationSize 4 (UInt16.ofNat payload.length)) ++
    when (payload.length < 4) .registrationShort

end Eip.Spec
