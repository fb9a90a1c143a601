import Verif.Model.Headers
/-
What a program expects of the headers it includes.
-/
namespace Eip

/-- A source file before its first `#include` of a header of the library: none of the guards is defined. -/
def Text.Untouched (t : Text) : Prop := t.text = [] ∧ ∀ h : Header, h.guard ∉ t.macros

/-- The translation unit contains the declaration of this name. -/
def Text.Sees (t : Text) (name : String) : Prop := ∃ h ∈ t.text, name ∈ h.declares

/-- Every header finds the names it uses declared before it. -/
def Text.InOrder (t : Text) : Prop :=
  ∀ before h after, t.text = before ++ h :: after → ∀ name ∈ h.uses, ∃ g ∈ before, name ∈ g.declares

end Eip
