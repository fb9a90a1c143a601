import Verif.Spec.Wire
import Verif.Model.Types
/-
How the values of the elementary types are sent, stated independently of the code.
-/
namespace Eip.Spec
open Eip

/-- The bytes of a value on the wire: BOOL is one byte, 0 for false and 1 for true; unsigned numbers and bit strings are
little-endian; a signed number is sent as the unsigned number of the same size that is congruent to it. -/
def cipBytes : (t : EipType) → t.Val → Bytes
  | .bool, v => [if v then 1 else 0]
  | .byte, v | .usint, v => le 1 v.toNat
  | .sint, v => le 1 (v.toInt % 256).toNat
  | .word, v | .uint, v => le 2 v.toNat
  | .int, v => le 2 (v.toInt % 65536).toNat
  | .dword, v | .udint, v => le 4 v.toNat
  | .dint, v => le 4 (v.toInt % 4294967296).toNat

/-- The number the protocol gives a type of `2 ^ k` bytes: signed numbers count from 0xC2, unsigned ones from 0xC6, bit strings
from 0xD1, and BOOL is 0xC1. -/
def cipNumber (t : EipType) (k : Nat) : Nat :=
  match t with
  | .bool => 0xC1
  | .sint | .int | .dint => 0xC2 + k
  | .usint | .uint | .udint => 0xC6 + k
  | .byte | .word | .dword => 0xD1 + k

end Eip.Spec
