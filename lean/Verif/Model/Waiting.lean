import Verif.Model.Wired
/-
A call of a session that does not come back: it waits in a receive. There are no timeouts in the library.
-/
namespace Eip

/-- A receive on this socket would wait (socket/tcp_socket.h:87-91, socket/udp_socket.h:89-94): there is nothing to deliver,
and no error, as when the peer has closed the connection. -/
def Sockets.Waits (k : Sockets) : Sock → Prop
  | .tcp => ∀ n, TCPSocket.receive 4096 (some n) k.tcp = (.ok none, k.tcp)
  | .io => UDPSocket.receive 4096 k.udp = (.ok none, k.udp)

/-- A call on the public interface (session.h:83-204) that has not come back: `as` has happened to the sockets since it
began, its next socket call is a receive on `sock` (src/session.cpp:172, 338), and that waits. Only those answers of the
environment matter that belong to the calls in `as`; what follows the receive in the trace is not part of this. -/
structure NetWaits (dns : String → String → List Endpoint) (k : Sockets) (w : World) (op : Op) (as : List NetAct) (k' : Sockets)
    (sock : Sock) : Prop where
  next : ∃ b ok rest, (op.run w).2.trace = w.trace ++ calls as ++ .received sock b ok :: rest
  happen : AllHappen dns k as k'
  waits : k'.Waits sock

end Eip
