import Verif.Model.Session
/-
Copies of a `Session`.
-/
namespace Eip

/-- `{ Session copy(session); p(copy); }`: `Session` (session.h:61-247) declares no copy constructor, so the implicit
one copies every member, including the `shared_ptr`s `socket_` and `io_socket_` (lines 209-210): the copy uses the same
sockets. Afterwards the original object is as before. -/
def Session.onCopy {α : Type} (p : Prog World α) : Prog World α := fun w =>
  match p w with
  | (r, w') => (r, { w' with s := w.s })

end Eip
