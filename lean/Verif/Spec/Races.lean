import Verif.Model.Races
import Verif.Spec.Threads
import Verif.Spec.Ops
/-
Vocabulary for threads that share a session (C128).
-/
namespace Eip.Spec
open Eip

/-- Two sessions have the same at this place. What a socket holds is not part of the session. -/
def SameAt : Place → Session → Session → Prop
  | .socket _, _, _ => True
  | .sessionId, s, s' => s.sessionId = s'.sessionId
  | .recvBuffer, s, s' => s.recvBuffer = s'.recvBuffer
  | .identity, s, s' => s.vendorId = s'.vendorId ∧ s.serialNum = s'.serialNum
  | .nextSn, s, s' => s.nextConnectionSn = s'.nextConnectionSn
  | .nextId, s, s' => s.nextConnectionId = s'.nextConnectionId
  | .connections, s, s' => s.connections = s'.connections

/-- Two accesses to one place, one of which may change it. -/
def ConflictAt (p : Place) {β γ : Type} (a : Access β) (b : Access γ) : Prop :=
  (p ∈ a.writes ∧ (p ∈ b.reads ∨ p ∈ b.writes)) ∨ (p ∈ b.writes ∧ p ∈ a.reads)

/-- The thread is about to make this access. -/
def Thread.Next (t : Thread) {β : Type} (a : Access β) : Prop :=
  ∃ op next, t.now = some ⟨op, .access a next⟩

/-- A data race: two threads are about to make accesses to one place, one of which may change it, and nothing keeps them from
making them at the same time. By the C++ standard the behaviour is then undefined. -/
def Crew.RaceAt (p : Place) (c : Crew) : Prop :=
  ∃ i j, i ≠ j ∧ ∃ (β γ : Type) (a : Access β) (b : Access γ), Thread.Next (c.threads i) a ∧ Thread.Next (c.threads j) b ∧ ConflictAt p a b

/-- A data race anywhere. -/
def Crew.Race (c : Crew) : Prop := ∃ p, Crew.RaceAt p c

/-- Calls that may be made at the same time: looking at a connection while no connection is made or closed, and sending I/O
data while a command is carried out. -/
def Together : Op → Op → Prop
  | .getConnection _, .createConnection .. => False
  | .getConnection _, .closeConnection _ => False
  | .createConnection .., .getConnection _ => False
  | .closeConnection _, .getConnection _ => False
  | .getConnection _, _ => True
  | _, .getConnection _ => True
  | .sendIOPacket _, op => IsCommand op
  | op, .sendIOPacket _ => IsCommand op
  | _, _ => False

/-- The answers thread `i` got to its socket calls. -/
def answersTo (i : Nat) (c : Crew) : List Answer := (mine i c.made).map c.w.env

/-- The socket calls made by thread `i`. -/
def deeds (i : Nat) (c : Crew) : List Ev := (mine i c.made).filterMap (c.w.trace[·]?)

/-- The calls made one after the other by one thread alone, up to undefined behaviour, with their results. -/
def results : List Op → World → List Ended × World
  | [], w => ([], w)
  | op :: ops, w =>
    match op.value w with
    | (.ub u, w') => ([⟨op, .ub u⟩], w')
    | (r, w') => (⟨op, r⟩ :: (results ops w').1, (results ops w').2)

/-- Two threads, each with one call. -/
def two (op op' : Op) : Nat → List Op
  | 0 => [op]
  | 1 => [op']
  | _ => []

/-- Data to be sent that can be sent: an object that reports its true length. -/
def Sendable : Op → Prop
  | .setAttribute _ _ _ data => ∃ bs, EncodesOpt data bs
  | .sendIOPacket pkt => ∃ bs, Encodes pkt.obj bs
  | _ => True

/-- Calls that use the control socket. -/
def OnTcp : Op → Prop
  | .open .. => True
  | .close => True
  | op => IsCommand op

/-- Calls for I/O data. -/
def IsIO : Op → Prop
  | .receiveIOPacket => True
  | .sendIOPacket _ => True
  | _ => False

/-- Calls that use the I/O socket. -/
def OnIo : Op → Prop
  | .open .. => True
  | .close => True
  | op => IsIO op

end Eip.Spec
