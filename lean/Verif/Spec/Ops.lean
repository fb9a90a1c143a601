import Verif.Spec.Session
import Verif.Model.Session
/-
Kinds of calls on a session.
-/
namespace Eip.Spec
open Eip

/-- The attribute and connection commands. -/
def IsCommand : Op → Prop
  | .getAttribute .. => True
  | .setAttribute .. => True
  | .createConnection .. => True
  | .closeConnection _ => True
  | _ => False

/-- A command with proper arguments: the data written is an object that reports its true length, the connection closed
exists. -/
def Proper (s : Session) : Op → Prop
  | .setAttribute _ _ _ data => ∃ bs, EncodesOpt data bs
  | .closeConnection n => n < s.connections.length
  | _ => True

/-- Two worlds that differ at most in the list of connections. -/
def SameButConnections (w w' : World) : Prop :=
  w' = { w with s := { w.s with connections := w'.s.connections } }

/-- A serializer that, whenever it returns normally on a buffer writer, has only added bytes to it. It need not write
what it announced. -/
def Appends (p : Prog Writer Unit) : Prop :=
  ∀ bw w', p (.buffer bw) = (.ok (), w') → ∃ bw' extra, w' = .buffer bw' ∧ bw'.written = bw.written ++ extra

/-- The same for the data of a set attribute command, if any. -/
def OpAppends : Op → Prop
  | .setAttribute _ _ _ (some o) => Appends o.serialize
  | _ => True

/-- A frame with the given command and session handle, any length field, and zero status, context and options. -/
def FrameOf (command : Nat) (handle : UInt32) (bytes : Bytes) : Prop :=
  ∃ n rest, bytes = le 2 command ++ le 2 n ++ le 4 handle.toNat ++ le 4 0 ++ le 4 0 ++ le 4 0 ++ le 4 0 ++ rest

/-- The same world with other old bytes in the receive buffer. -/
def withBuffer (w : World) (old : Bytes) : World := { w with s := { w.s with recvBuffer := old } }

/-- A program whose outcome, and everything it does except to the receive buffer, does not depend on the bytes that
were in the receive buffer before. -/
def Oblivious {α : Type} (p : Prog World α) : Prop :=
  ∀ w old, ∃ left, p (withBuffer w old) = ((p w).1, withBuffer (p w).2 left)

/-- In this history, from this world on, no `open` returns normally. -/
def NeverOpens : List Op → World → Prop
  | [], _ => True
  | op :: ops, w => ((∃ host port ioPort, op = .open host port ioPort) → (op.run w).1 ≠ .ok ()) ∧ NeverOpens ops (op.run w).2

end Eip.Spec
