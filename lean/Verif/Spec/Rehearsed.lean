import Verif.Model.Rehearsed
/-
Terms used to state properties of a session on fake sockets.
-/
namespace Eip.Spec
open Eip

/-- New sockets with any scripts; what is in the 4096 bytes for recording is arbitrary. -/
def Fakes.Fresh (k : Fakes) : Prop := ∀ x, ∃ mem rx, mem.length = 4096 ∧ k.sock x = .new mem rx

/-- The bytes sent on a socket, in order. -/
def sentOn (x : Sock) : List Ev → Bytes
  | [] => []
  | .sent y b true :: evs => if y = x then b ++ sentOn x evs else sentOn x evs
  | _ :: evs => sentOn x evs

/-- The bytes received from a socket, in order. -/
def receivedOn (x : Sock) : List Ev → Bytes
  | [] => []
  | .received y b true :: evs => if y = x then b ++ receivedOn x evs else receivedOn x evs
  | _ :: evs => receivedOn x evs

/-- Does a test leave what a socket has recorded alone? -/
def NeverClears (x : Sock) (lines : List TestLine) : Prop := TestLine.clear x ∉ lines

/-- Does a test leave the script of a socket alone? -/
def NeverScripts (x : Sock) (lines : List TestLine) : Prop := ∀ bytes, TestLine.script x bytes ∉ lines

/-- A caller that opens the session only when it is not open, and uses and closes it only when it is. The flag says whether
it is. -/
def UsesWhenOpen : Bool → List (Op × Res Unit) → Prop
  | _, [] => True
  | isOpen, (.open _ _ _, r) :: rest => isOpen = false ∧ UsesWhenOpen (match r with | .ok _ => true | _ => false) rest
  | isOpen, (.close, _) :: rest => isOpen = true ∧ UsesWhenOpen false rest
  | isOpen, (.getConnection _, _) :: rest => UsesWhenOpen isOpen rest
  | isOpen, _ :: rest => isOpen = true ∧ UsesWhenOpen true rest

end Eip.Spec
