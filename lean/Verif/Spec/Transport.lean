import Verif.Spec.Ops
import Verif.Model.Shared
/-
What the transport may do to the bytes of requests and replies.
-/
namespace Eip.Spec
open Eip

/-- The same world, except that socket call number `n`, if it is a send, accepts `f n` bytes. -/
def withAccepted (w : World) (f : Nat → Nat) : World :=
  { w with env := fun n => { w.env n with accepted := f n } }

/-- A program whose outcome and effects do not depend on how many bytes the socket accepts when sending. -/
def IgnoresAccepted {α : Type} (p : Prog World α) : Prop :=
  ∀ w f, p (withAccepted w f) = ((p w).1, withAccepted (p w).2 f)

/-- What a command that expects a reply with the given command code may make of the bytes it has received: if they start
with an acceptable frame the frame is the result, otherwise an exception. -/
inductive Takes (id : UInt32) (command : UInt16) (bytes : Bytes) : Res EncapPacket → Prop
  | accepted (h : EncapHeader) (payload tail : Bytes) (hc : h.command = command) (ha : Acceptable id h.sessionHandle)
      (hl : payload.length = h.length.toNat) (hb : bytes = header h ++ payload ++ tail) :
      Takes id command bytes (.ok ⟨h, rawData payload⟩)
  | refused (e : Exn) (hk : e.kind = .lengthError ∨ e.kind = .logicError)
      (hn : ¬ ∃ handle payload, Packet bytes command handle payload ∧ Acceptable id handle) :
      Takes id command bytes (.throw e)

/-- Commands are issued one at a time: a caller sends only while no command is under way. -/
def OneAtATime (device : Bytes → Bytes) : List (Nat × Act) → Net → Prop
  | [], _ => True
  | (i, act) :: rest, n => (act = .send → ∀ j, (n.callers j).stage = .idle) ∧
      ∀ n', n.step device i act = some n' → OneAtATime device rest n'

/-- Replies arrive whole: a receive delivers everything that is on its way. -/
def ArrivesWhole (device : Bytes → Bytes) : List (Nat × Act) → Net → Prop
  | [], _ => True
  | (i, act) :: rest, n => (∀ k, act = .receive k → k = n.stream.length) ∧
      ∀ n', n.step device i act = some n' → ArrivesWhole device rest n'

/-- A completed command: who issued it, the request and its bytes, the bytes it received and what it made of them. -/
structure Round where
  caller : Nat
  req : EncapPacket
  request : Bytes
  received : Bytes
  result : Res EncapPacket

end Eip.Spec
