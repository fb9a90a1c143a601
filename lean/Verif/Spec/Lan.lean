import Verif.Spec.Scanner
import Verif.Model.Lan
/-
What a scan of a network should find (C131).
-/
namespace Eip.Spec
open Eip

/-- Is a datagram for the address `dest` heard by the host `a`? -/
def Lan.Hears (lan : Lan) (dest a : Nat) : Prop := a = dest ∨ lan.broadcast dest = true

/-- The mail of a quiet network after `dest` has been asked: every device that hears the request answers, once, with its
identity, in any order, and nobody else sends anything. `devices` gives the identities of the hosts that are devices. -/
structure Courteous (lan : Lan) (devices : Nat → Option IdentityItemData) (dest : Nat) (mail : List Mail) : Prop where
  answers : ∀ m ∈ mail, Lan.Hears lan dest m.sender ∧
    ∃ x, devices m.sender = some x ∧ IdentityReply (m.data.take 4096) x
  everyone : ∀ a x, devices a = some x → Lan.Hears lan dest a → ∃ m ∈ mail, m.sender = a
  once : (mail.map (·.sender)).Nodup

/-- The scan has reported a device with this identity. -/
def ReportedBy (scan : Res (Option (List Mail)) × Option LanScanner) (x : IdentityItemData) : Prop :=
  ∃ s, scan.2 = some s ∧ .reported x ∈ s.scanner.log

/-- The datagrams the scan has sent. -/
def sentBy (scan : Res (Option (List Mail)) × Option LanScanner) : List (Endpoint × Bytes) :=
  match scan.2 with
  | some s => s.sent
  | none => []

/-- The scan of the address `dest` has found the devices there: those that hear a request to this address, and no others. -/
def Finds (lan : Lan) (devices : Nat → Option IdentityItemData) (dest : Nat)
    (scan : Res (Option (List Mail)) × Option LanScanner) : Prop :=
  ∀ x, ReportedBy scan x ↔ ∃ a, Lan.Hears lan dest a ∧ devices a = some x

end Eip.Spec
