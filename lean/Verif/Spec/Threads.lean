import Verif.Model.Threads
import Verif.Spec.Memory
import Verif.Spec.Session
/-
Calls made by several threads on one session: what each of them is told by the sockets.
-/
namespace Eip.Spec
open Eip

/-- Which of the socket calls so far were made by call `i`. -/
def mine (i : Nat) (made : List Nat) : List Nat := (made.zipIdx.filter (fun x => x.1 == i)).map (·.2)

/-- The answers call `i` got to its socket calls. -/
def own {ops : Nat → Op} (i : Nat) (p : Pool ops) : List Answer := (mine i p.made).map p.w.env

/-- What remains of received bytes in the buffer after these events: later receives store their bytes at the same place. -/
def remains (evs : List Ev) (bytes : Bytes) : Bytes := (evs.foldl overwrite bytes).take bytes.length

/-- The answers call `i` got to its socket calls, as they look now: with what remains of the bytes it has received. -/
def seen {ops : Nat → Op} (i : Nat) (p : Pool ops) : List Answer :=
  (mine i p.made).map fun k => { p.w.env k with data := remains (p.w.trace.drop (k + 1)) (delivered p.w.env k) }

/-- A session in state `s` all alone, whose socket calls will get these answers. -/
def facing (s : Session) (answers : List Answer) : World := ⟨s, fun n => answers[n]?.getD ⟨true, [], 0⟩, 0, []⟩

/-- Bytes were received by one of the sockets. -/
def Received : Ev → Prop
  | .received _ _ ok => ok = true
  | _ => False

/-- Nobody has received anything since call `i` did. -/
def Undisturbed {ops : Nat → Op} (i : Nat) (p : Pool ops) : Prop :=
  ∀ k ∈ mine i p.made, ∀ s d, p.w.trace[k]? = some (.received s d true) → ∀ ev ∈ p.w.trace.drop (k + 1), ¬ Received ev

/-- A call that neither opens nor closes the session. -/
def Inside : Op → Prop
  | .open .. | .close => False
  | _ => True

/-- A call that reads or writes an attribute or transfers I/O data. -/
def Transfers : Op → Prop
  | .getAttribute .. | .setAttribute .. | .receiveIOPacket | .sendIOPacket _ => True
  | _ => False

/-- The session apart from the bytes in the receive buffer. -/
def apart (s : Session) : Session := { s with recvBuffer := [] }

/-- The call is over, with this result. -/
def Over {ops : Nat → Op} (i : Nat) (p : Pool ops) (r : Res (ops i).Value) : Prop := p.tasks i = .done r

end Eip.Spec
