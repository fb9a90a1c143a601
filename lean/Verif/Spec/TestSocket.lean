import Verif.Model.TestSocket
/-
What a test expects from its socket.
-/
namespace Eip.Spec

/-- Everything sent since the last clear, given what was sent before. -/
def sentSinceClear : Bytes → List TestCall → Bytes
  | acc, [] => acc
  | acc, .send b :: cs => sentSinceClear (acc ++ b) cs
  | _, .clear :: cs => sentSinceClear [] cs
  | acc, _ :: cs => sentSinceClear acc cs

/-- The buffer sizes of the receives in a sequence of calls, and 0 for other calls. -/
def requested : TestCall → Nat
  | .receive n => n
  | _ => 0

/-- Does the call leave the script alone? -/
def keepsScript : TestCall → Prop
  | .script _ => False
  | _ => True

/-- Cut a byte string into consecutive pieces of at most the given sizes. -/
def pieces : Bytes → List Nat → List Bytes
  | _, [] => []
  | bs, n :: ns => bs.take n :: pieces (bs.drop n) ns

/-- Whether the last `open` or `close` was an `open`, and the names given to the last `open`. -/
def openedAs : Bool × String × String → List TestCall → Bool × String × String
  | st, [] => st
  | _, .open h p :: cs => openedAs (true, h, p) cs
  | st, .close :: cs => openedAs (false, st.2) cs
  | st, _ :: cs => openedAs st cs

end Eip.Spec
