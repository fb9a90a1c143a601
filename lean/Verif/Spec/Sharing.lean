import Verif.Model.Sharing
import Verif.Spec.Packet
/-
C120: packets that share their payloads.
-/
namespace Eip.Spec
open Eip

/-- The encapsulation packet number `x` with the payload it has now. -/
def packetOf (m : Store) (x : Nat) : Option EncapPacket := (m.packets[x]?).map (·.look m.objs)

/-- The CPF packet number `x` with the data its items have now. -/
def cpfOf (m : Store) (x : Nat) : Option CPFPacket := (m.cpfs[x]?).map (fun l => ⟨l.map (·.look m.objs)⟩)

/-- A pointer a program can have: null, or to an object that exists. -/
def Points (m : Store) : Option Nat → Prop
  | none => True
  | some i => i < m.objs.length

/-- The program uses only pointers to objects that exist. -/
def Legal (m : Store) : ShareOp → Prop
  | .newPacketWith _ _ p => Points m p
  | .setPayload _ p => Points m p
  | .setItems _ l => ∀ i ∈ l, Points m i.data
  | _ => True

/-- All steps of a program are legal. -/
def LegalRun : List ShareOp → Store → Prop
  | [], _ => True
  | op :: ops, m => Legal m op ∧ LegalRun ops (op.run m).2

/-- The encapsulation packet a step works on. -/
def packetTarget : ShareOp → Option Nat
  | .assignPacket x _ | .setPayload x _ | .updateLength x | .setHeader x _ | .parse x _ | .parseSized x _ _ => some x
  | _ => none

/-- The CPF packet a step works on. -/
def cpfTarget : ShareOp → Option Nat
  | .assignCPF x _ | .setItems x _ | .parseCPF x _ => some x
  | _ => none

/-- A step that keeps length fields right if they are right: objects are changed only without changing their size, the length
field is not assigned, and parses return normally. -/
def Steady (m : Store) : ShareOp → Prop
  | .change i o => ∀ old, m.objs[i]? = some old → o.getLength = old.getLength
  | .setHeader x h => ∀ p, m.packets[x]? = some p → h.length = p.header.length
  | .parse x input => ((ShareOp.parse x input).run m).1 = .ok ()
  | .parseSized x n input => ((ShareOp.parseSized x n input).run m).1 = .ok ()
  | _ => True

/-- All steps of a program are steady. -/
def SteadyRun : List ShareOp → Store → Prop
  | [], _ => True
  | op :: ops, m => Steady m op ∧ SteadyRun ops (op.run m).2

end Eip.Spec
