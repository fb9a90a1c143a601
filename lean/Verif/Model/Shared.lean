import Verif.Model.Session
/-
Several callers using one session and its TCP connection: `sendCommand` (src/session.cpp:166-186) cut at its two socket
calls. Nothing in session.h or src/session.cpp takes a lock, so between these points anything else may happen.
-/
namespace Eip

/-- Where a caller is inside `sendCommand` (src/session.cpp:166-186). -/
inductive Stage
  /-- not in `sendCommand` -/
  | idle
  /-- line 169 (`send`) is done, line 172 (`receive`) is not -/
  | sent (req : EncapPacket)
  /-- line 172 has returned `n`, `recv_buffer_` has not been parsed yet (line 177) -/
  | received (req : EncapPacket) (n : Nat)

/-- A caller, usually a thread, with the commands it is still going to issue (src/session.cpp:116, 252). -/
structure Caller where
  todo : List EncapPacket
  stage : Stage

/-- A session shared by callers: the session with its `recv_buffer_` (session.h:209-218), the bytes on their way from the
device to `socket_`, the callers, and the completed commands with their results in the order of completion. -/
structure Net where
  w : World
  stream : Bytes
  callers : Nat → Caller
  done : List (Nat × EncapPacket × Res EncapPacket)

/-- The next thing a caller does. `receive k`: the call delivers `k` bytes. -/
inductive Act
  | send
  | receive (k : Nat)
  | finish
  deriving DecidableEq, Repr

/-- The world when the next socket call (socket/socket.h:58-103) is answered by `a`. -/
def World.facing (w : World) (a : Answer) : World := { w with env := fun _ => a }

/-- Caller `i` moves to another stage. -/
def Net.move (n : Net) (i : Nat) (c : Caller) : Nat → Caller := fun j => if j = i then c else n.callers j

namespace Session

/-- The rest of `sendCommand` after `receive` has returned `n` (src/session.cpp:175-185). -/
def parseReply (req : EncapPacket) (n : Nat) : Prog World EncapPacket := do
  let w ← Prog.get
  let result ← parsePacket (w.s.recvBuffer.take n)
  checkPacket result req.header.command
  pure result

end Session

/-- One step of caller `i` (src/session.cpp:166-186); `none` if it cannot be done now. The device answers every request
it gets; its replies reach the session as one stream of bytes, and a receive (socket/tcp_socket.h:87-91) delivers any
non-empty part of what is there, up to the size of the buffer. Simplifications: the socket calls do not fail, requests
arrive complete, and a request that cannot be serialized is never issued. -/
def Net.step (device : Bytes → Bytes) (i : Nat) (act : Act) (n : Net) : Option Net :=
  match act, (n.callers i).stage with
  | .send, .idle =>
    match (n.callers i).todo with
    | [] => none
    | req :: rest =>
      match serializeToVector req.obj.getLength req.obj.serialize n.w with
      | (.ok bytes, w) =>
        match sockSendBuffer .tcp bytes (w.facing ⟨false, [], bytes.length⟩) with
        | (.ok _, w') => some { n with
            w := w'
            stream := n.stream ++ device bytes
            callers := n.move i ⟨rest, .sent req⟩ }
        | _ => none
      | _ => none
  | .receive k, .sent req =>
    if 0 < k ∧ k ≤ recvCapacity ∧ k ≤ n.stream.length then
      match sockReceive .tcp (n.w.facing ⟨false, n.stream.take k, 0⟩) with
      | (.ok bytes, w') => some { n with
          w := w'
          stream := n.stream.drop k
          callers := n.move i ⟨(n.callers i).todo, .received req bytes.length⟩ }
      | _ => none
    else none
  | .finish, .received req m =>
    match Session.parseReply req m n.w with
    | (r, w') => some { n with
        w := w'
        callers := n.move i ⟨(n.callers i).todo, .idle⟩
        done := n.done ++ [(i, req, r)] }
  | _, _ => none

/-- A session whose callers have not started yet (session.h:83-204): nothing is on the way and nothing is done. -/
def Net.start (w : World) (todo : Nat → List EncapPacket) : Net := ⟨w, [], fun i => ⟨todo i, .idle⟩, []⟩

/-- The net after a sequence of steps, if all of them are possible (src/session.cpp:166-186). -/
def Net.steps (device : Bytes → Bytes) : List (Nat × Act) → Net → Option Net
  | [], n => some n
  | (i, act) :: rest, n =>
    match n.step device i act with
    | some n' => Net.steps device rest n'
    | none => none

end Eip
