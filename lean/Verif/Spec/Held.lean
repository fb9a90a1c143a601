import Verif.Model.Items
import Verif.Model.Messages
/-
How much of a message an object keeps (C130).
-/
namespace Eip.Spec
open Eip

/-- The bytes a payload refers to: those of a raw buffer, the length of any other object, none for a null pointer. -/
def kept : Option Obj → Nat
  | some o => match o.asBuffer with
    | some bs => bs.length
    | none => o.getLength
  | none => 0

/-- What a CPF packet keeps, with four bytes for every item. So it has at most a quarter as many items. -/
def keptItems (p : CPFPacket) : Nat := (p.items.map (fun i => 4 + kept i.data)).sum

/-- What a message router response keeps. -/
def keptReply (r : MessageRouterResponse) : Nat := kept r.additionalStatus + kept r.responseData

/-- However hostile the bytes are, parsing them makes the object keep at most as many more bytes as it has taken from the
reader (and `extra`); if it returns, it keeps no more than it has taken. -/
def Frugal {δ : Type} (held : δ → Nat) (extra : Nat) (p : Prog (δ × Reader) Unit) : Prop :=
  ∀ (d : δ) (input : Bytes) (c : Nat), ∃ (taken rest : Bytes) (c' : Nat), input = taken ++ rest ∧
    (p (d, .buffer ⟨input, c⟩)).2.2 = .buffer ⟨rest, c'⟩ ∧
    held (p (d, .buffer ⟨input, c⟩)).2.1 ≤ held d + taken.length + extra ∧
    ((p (d, .buffer ⟨input, c⟩)).1 = .ok () → held (p (d, .buffer ⟨input, c⟩)).2.1 ≤ taken.length)

end Eip.Spec
