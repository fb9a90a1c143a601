import Verif.Model.Shared
import Verif.Model.TestSocket
/-
A session on the fake sockets of socket/test_socket.h, as in test/session_test.cpp and in the tests users write.
-/
namespace Eip

/-- `socket_` and `io_socket_` (session.h:209-210) when both are a `TestSocket` (socket/test_socket.h:44-65). -/
structure Fakes where
  tcp : TestSocket
  io : TestSocket
  deriving DecidableEq, Repr

namespace Fakes

/-- One of the two (session.h:209-210). -/
def sock (k : Fakes) : Sock → TestSocket
  | .tcp => k.tcp
  | .io => k.io

/-- One of the two (session.h:209-210) becomes `t`. -/
def set (k : Fakes) : Sock → TestSocket → Fakes
  | .tcp, t => { k with tcp := t }
  | .io, t => { k with io := t }

/-- A socket call of the session (src/session.cpp:80-357) with this result: the sockets afterwards, if it is the result a
`TestSocket` gives (socket/test_socket.h:76-114). None of its functions throws; `recv_buffer_` has 4096 bytes
(session.h:212). -/
def take (k : Fakes) : Ev → Option Fakes
  | .opened s hostname port true => some (k.set s ((k.sock s).open hostname port))
  | .closed s true => some (k.set s (k.sock s).close)
  | .sent s bytes true => some (k.set s ((k.sock s).send bytes).2)
  | .received s bytes true => if bytes = ((k.sock s).receive 4096).1 then some (k.set s ((k.sock s).receive 4096).2) else none
  | _ => none

/-- Several socket calls of the session (socket/test_socket.h:76-114). -/
def takeAll : Fakes → List Ev → Option Fakes
  | k, [] => some k
  | k, ev :: evs => (k.take ev).bind (·.takeAll evs)

end Fakes

/-- A line of a test: a call on the session (session.h:83-204), setting `rx_buffer` of a socket (socket/test_socket.h:63),
or `clearTxBuffer` (socket/test_socket.h:119-123). -/
inductive TestLine : Type 1
  | call (op : Op)
  | script (s : Sock) (bytes : Bytes)
  | clear (s : Sock)

/-- A test (test/session_test.cpp:66-1031 is made of such) runs: the calls with their outcomes, all socket calls that were
made, and the session and the sockets at the end. Each call gets the answers the sockets give. Undefined behaviour
ends the test. -/
inductive Rehearsal : Session → Fakes → List TestLine → List (Op × Res Unit) → List Ev → Session → Fakes → Prop
  | nil (s : Session) (k : Fakes) : Rehearsal s k [] [] [] s k
  | script {s s' : Session} {k k' : Fakes} {lines : List TestLine} {outs : List (Op × Res Unit)} {evs : List Ev} (x : Sock)
      (bytes : Bytes) (t : Rehearsal s (k.set x { k.sock x with rx := bytes }) lines outs evs s' k') :
      Rehearsal s k (.script x bytes :: lines) outs evs s' k'
  | clear {s s' : Session} {k k' : Fakes} {lines : List TestLine} {outs : List (Op × Res Unit)} {evs : List Ev} (x : Sock)
      (t : Rehearsal s (k.set x (k.sock x).clear) lines outs evs s' k') :
      Rehearsal s k (.clear x :: lines) outs evs s' k'
  | call {s s' : Session} {k k1 k' : Fakes} {lines : List TestLine} {outs : List (Op × Res Unit)} {evs : List Ev} (op : Op)
      (env : Nat → Answer) (r : Res Unit) (w : World) (run : op.run ⟨s, env, 0, []⟩ = (r, w))
      (fakes : k.takeAll w.trace = some k1) (defined : ∀ u, r ≠ .ub u) (t : Rehearsal w.s k1 lines outs evs s' k') :
      Rehearsal s k (.call op :: lines) ((op, r) :: outs) (w.trace ++ evs) s' k'
  | crash {s : Session} {k k1 : Fakes} {lines : List TestLine} (op : Op) (env : Nat → Answer) (u : UB) (w : World)
      (run : op.run ⟨s, env, 0, []⟩ = (.ub u, w)) (fakes : k.takeAll w.trace = some k1) :
      Rehearsal s k (.call op :: lines) [(op, .ub u)] w.trace w.s k1

end Eip
