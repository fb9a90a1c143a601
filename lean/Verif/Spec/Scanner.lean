import Verif.Spec.Wire
import Verif.Model.Scanner
/-
Datagrams as the list identity scanner should understand them.
-/
namespace Eip.Spec

/-- A list identity datagram whose first item has the given type and data. -/
def ListIdentity (bytes : Bytes) (type : UInt16) (data : Bytes) : Prop :=
  ∃ handle payload more tail, Packet bytes 0x63 handle payload ∧ CpfOk ((type, data) :: more) ∧
    payload = cpf ((type, data) :: more) ++ tail

/-- A complete list identity reply for a device with identity `x`. -/
def IdentityReply (bytes : Bytes) (x : IdentityItemData) : Prop :=
  ∃ data tail, ListIdentity bytes 0x0C data ∧ x.productName.length < 256 ∧ data = identity x x.productName ++ tail

/-- A list identity datagram without payload, as the request itself is. -/
def NoPayload (bytes : Bytes) : Prop := ∃ handle, Packet bytes 0x63 handle []

end Eip.Spec
