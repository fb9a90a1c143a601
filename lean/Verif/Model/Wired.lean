import Verif.Model.Session
import Verif.Model.Sockets

/-
A session on the sockets of the library: the answers to its socket calls are no longer arbitrary, but those of `TCPSocket`
and `UDPSocket`.
-/
namespace Eip

/-- `socket_` and `io_socket_` (session.h:209-210) when they are a `TCPSocket` (socket/tcp_socket.h:45-98) and a `UDPSocket`
(socket/udp_socket.h:45-100). -/
structure Sockets where
  tcp : TCPSocket
  udp : UDPSocket
  deriving DecidableEq, Repr

/-- Something that happens to the sockets: the session makes a call, or something arrives from the network for
the one (socket/tcp_socket.h:97) or the other (socket/udp_socket.h:97). -/
inductive NetAct
  | call (ev : Ev)
  | bytes (b : Bytes)
  | datagram (sender : Endpoint) (b : Bytes)
  deriving DecidableEq, Repr

/-- What can happen to the sockets. `dns` says what the resolver knows about a name and a port; it may also fail. Each call
is the function of the socket (socket/tcp_socket.h:56-91, socket/udp_socket.h:57-94) with some answers of the system;
`recv_buffer_` has 4096 bytes (session.h:212). A call that waits forever is not in the relation. In the event of a receive
that throws the data means nothing. -/
inductive Happens (dns : String → String → List Endpoint) : Sockets → NetAct → Sockets → Prop
  | tcpOpen (k : Sockets) (host port : String) (env : OpenEnv) (known : env.resolved = dns host port ∨ env.resolved = [])
      (ok : Bool) (t : TCPSocket)
      (e : TCPSocket.open env k.tcp = (if ok then .ok () else .throw systemError, t)) :
      Happens dns k (.call (.opened .tcp host port ok)) { k with tcp := t }
  | udpOpen (k : Sockets) (host port : String) (env : OpenEnv) (known : env.resolved = dns host port ∨ env.resolved = [])
      (ok : Bool) (u : UDPSocket)
      (e : UDPSocket.open env k.udp = (if ok then .ok () else .throw systemError, u)) :
      Happens dns k (.call (.opened .io host port ok)) { k with udp := u }
  | tcpClose (k : Sockets) (works ok : Bool) (t : TCPSocket)
      (e : TCPSocket.close works k.tcp = (if ok then .ok () else .throw systemError, t)) :
      Happens dns k (.call (.closed .tcp ok)) { k with tcp := t }
  | udpClose (k : Sockets) (works ok : Bool) (u : UDPSocket)
      (e : UDPSocket.close works k.udp = (if ok then .ok () else .throw systemError, u)) :
      Happens dns k (.call (.closed .io ok)) { k with udp := u }
  | tcpSend (k : Sockets) (b : Bytes) (accepts : Option Nat) (n : Nat) (ok : Bool) (t : TCPSocket)
      (e : TCPSocket.send b accepts k.tcp = (if ok then .ok n else .throw systemError, t)) :
      Happens dns k (.call (.sent .tcp b ok)) { k with tcp := t }
  | udpSend (k : Sockets) (b : Bytes) (accepts : Bool) (n : Nat) (ok : Bool) (u : UDPSocket)
      (e : UDPSocket.send b accepts k.udp = (if ok then .ok n else .throw systemError, u)) :
      Happens dns k (.call (.sent .io b ok)) { k with udp := u }
  | tcpReceive (k : Sockets) (delivers : Option Nat) (b : Bytes) (ok : Bool) (t : TCPSocket)
      (e : TCPSocket.receive 4096 delivers k.tcp = (if ok then .ok (some b) else .throw systemError, t)) :
      Happens dns k (.call (.received .tcp b ok)) { k with tcp := t }
  | udpReceive (k : Sockets) (b : Bytes) (ok : Bool) (u : UDPSocket)
      (e : UDPSocket.receive 4096 k.udp = (if ok then .ok (some b) else .throw systemError, u)) :
      Happens dns k (.call (.received .io b ok)) { k with udp := u }
  | bytes (k : Sockets) (b : Bytes) : Happens dns k (.bytes b) { k with tcp := k.tcp.arrive b }
  | datagram (k : Sockets) (sender : Endpoint) (b : Bytes) :
      Happens dns k (.datagram sender b) { k with udp := k.udp.arrive sender b }

/-- Several things happen, one after the other (socket/tcp_socket.h:45-98, socket/udp_socket.h:45-100). -/
inductive AllHappen (dns : String → String → List Endpoint) : Sockets → List NetAct → Sockets → Prop
  | nil (k : Sockets) : AllHappen dns k [] k
  | cons {k k' k'' : Sockets} {a : NetAct} {as : List NetAct} (h : Happens dns k a k') (t : AllHappen dns k' as k'') :
      AllHappen dns k (a :: as) k''

/-- The calls of the session among the things that happen (session.h:209-210). -/
def calls (as : List NetAct) : List Ev := as.filterMap (fun | .call ev => some ev | _ => none)

/-- One call on the public interface (session.h:83-204), over these sockets: the outcome, the world and the sockets
afterwards. The world's environment gives the answers the sockets give; everything that happens to the sockets meanwhile
is in `as`. -/
structure NetStep (dns : String → String → List Endpoint) (k : Sockets) (w : World) (op : Op) (r : Res Unit) (as : List NetAct)
    (k' : Sockets) (w' : World) : Prop where
  run : op.run w = (r, w')
  trace : w'.trace = w.trace ++ calls as
  happen : AllHappen dns k as k'

/-- A history of calls on a session over these sockets (session.h:83-204), with their outcomes. After undefined behaviour
there are no more calls. Between calls things may arrive. -/
inductive NetHistory (dns : String → String → List Endpoint) : Sockets → World → List (Op × Res Unit) → Sockets → World → Prop
  | nil (k : Sockets) (w : World) : NetHistory dns k w [] k w
  | arrive {k k' k'' : Sockets} {w w' : World} {ops : List (Op × Res Unit)} {a : NetAct} (network : calls [a] = [])
      (h : Happens dns k a k') (t : NetHistory dns k' w ops k'' w') : NetHistory dns k w ops k'' w'
  | call {k k' k'' : Sockets} {w w' w'' : World} {op : Op} {r : Res Unit} {as : List NetAct} {ops : List (Op × Res Unit)}
      (h : NetStep dns k w op r as k' w') (defined : (∃ u, r = .ub u) → ops = [])
      (t : NetHistory dns k' w' ops k'' w'') : NetHistory dns k w ((op, r) :: ops) k'' w''

end Eip
