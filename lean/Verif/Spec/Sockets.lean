import Verif.Model.Sockets

/-
Terms used to state properties of the real sockets.
-/
namespace Eip.Spec
open Eip

/-- Nothing stands in the way of opening a UDP socket: the name resolves, a socket can be created, the port is free. -/
def udpWorks (env : OpenEnv) : Prop := env.resolved ≠ [] ∧ env.creates = true ∧ env.portFree = true

/-- Nothing stands in the way of connecting: a socket can be created and one of the endpoints the name resolves to accepts
the connection. -/
def tcpWorks (env : OpenEnv) : Prop := env.creates = true ∧ ∃ ep ∈ env.resolved, env.connects ep = true

/-- The same socket after the senders of all datagrams that have arrived are replaced. -/
def fromOthers (s : UDPSocket) (f : Endpoint → Endpoint) : UDPSocket :=
  { s with inbox := s.inbox.map (fun d => (f d.1, d.2)) }

/-- A call on a socket other than `receive`, or something arriving from the network. -/
inductive SocketCall
  | «open» (env : OpenEnv)
  | close (works : Bool)
  | send (bytes : Bytes) (accepts : Bool)
  | arrive (sender : Endpoint) (bytes : Bytes)

/-- Does the call open the socket? -/
def SocketCall.isOpening : SocketCall → Bool
  | .open _ => true
  | _ => false

/-- What arrives during some calls, in order. -/
def arrivals (calls : List SocketCall) : List Bytes :=
  calls.filterMap (fun | .arrive _ b => some b | _ => none)

/-- The UDP socket after some calls, whatever their outcomes. -/
def udpAfter : List SocketCall → UDPSocket → UDPSocket
  | [], s => s
  | .open env :: cs, s => udpAfter cs (UDPSocket.open env s).2
  | .close works :: cs, s => udpAfter cs (UDPSocket.close works s).2
  | .send b a :: cs, s => udpAfter cs (UDPSocket.send b a s).2
  | .arrive e b :: cs, s => udpAfter cs (UDPSocket.arrive e b s)

/-- The TCP socket after some calls, whatever their outcomes. -/
def tcpAfter : List SocketCall → TCPSocket → TCPSocket
  | [], s => s
  | .open env :: cs, s => tcpAfter cs (TCPSocket.open env s).2
  | .close works :: cs, s => tcpAfter cs (TCPSocket.close works s).2
  | .send b a :: cs, s => tcpAfter cs (TCPSocket.send b (if a then some b.length else none) s).2
  | .arrive _ b :: cs, s => tcpAfter cs (TCPSocket.arrive b s)

end Eip.Spec
