import Verif.Model.Basic

/-
socket/udp_socket.h and socket/tcp_socket.h over the sockets of Boost.Asio.
-/
namespace Eip

/-- An IP address and a port. -/
structure Endpoint where
  address : Nat
  port : Nat
  deriving DecidableEq, Repr

/-- What the system answers to the calls made by one `open`: the endpoints the name resolves to (an empty list: it cannot
be resolved), whether a socket can be created, whether the local port is free, and which endpoints accept a connection. -/
structure OpenEnv where
  resolved : List Endpoint
  creates : Bool
  portFree : Bool
  connects : Endpoint → Bool

/-- `UDPSocket` (socket/udp_socket.h:45-100). `isOpen` and `bound` are the state of `socket_` (line 97), `localEndpoint` and
`remoteEndpoint` the members of lines 98-99. `sent` lists the datagrams given to the network with their destination,
`inbox` those that have arrived with their sender. -/
structure UDPSocket where
  isOpen : Bool
  bound : Bool
  localEndpoint : Endpoint
  remoteEndpoint : Endpoint
  sent : List (Endpoint × Bytes)
  inbox : List (Endpoint × Bytes)
  deriving DecidableEq, Repr

namespace UDPSocket

/-- The constructor (socket/udp_socket.h:49-50); `remote_endpoint_` is 0.0.0.0:0. -/
def new (localEndpoint : Endpoint) : UDPSocket := ⟨false, false, localEndpoint, ⟨0, 0⟩, [], []⟩

/-- `open` (socket/udp_socket.h:57-64). `resolve` throws if there is no result; `socket_.open` throws `already_open` if the
socket is open, or if the system cannot create one; `bind` throws if the port is in use. -/
def «open» (env : OpenEnv) : Prog UDPSocket Unit := fun s =>
  match env.resolved with
  | [] => (.throw systemError, s)
  | ep :: _ =>
    let s := { s with remoteEndpoint := ep }
    if s.isOpen then (.throw systemError, s)
    else if !env.creates then (.throw systemError, s)
    else
      let s := { s with isOpen := true, bound := false }
      if !env.portFree then (.throw systemError, s)
      else (.ok (), { s with bound := true })

/-- `close` (socket/udp_socket.h:69-72): datagrams that have not been received are lost. If the system reports an error
(`works` is false) it is thrown, but the socket is closed all the same, as Boost.Asio has it. On a closed socket nothing
happens. -/
def close (works : Bool) : Prog UDPSocket Unit := fun s =>
  (if s.isOpen && !works then .throw systemError else .ok (), { s with isOpen := false, bound := false, inbox := [] })

/-- `send` (socket/udp_socket.h:79-82): `bad_descriptor` if the socket is closed. `accepts` is false if the system refuses the
datagram. The system gives a socket that is not bound a port of its own choice when it sends. -/
def send (bytes : Bytes) (accepts : Bool) : Prog UDPSocket Nat := fun s =>
  if !s.isOpen || !accepts then (.throw systemError, s)
  else (.ok bytes.length, { s with bound := true, sent := s.sent ++ [(s.remoteEndpoint, bytes)] })

/-- `receive` (socket/udp_socket.h:89-94) into a buffer of `n` bytes: the next datagram, whoever sent it; the sender's endpoint
is stored in the local `ep`, which nobody looks at. `none`: the call waits. -/
def receive (n : Nat) : Prog UDPSocket (Option Bytes) := fun s =>
  if !s.isOpen then (.throw systemError, s)
  else match s.inbox with
    | [] => (.ok none, s)
    | d :: rest => (.ok (some (d.2.take n)), { s with inbox := rest })

/-- A datagram arrives for the socket (not a call: the network does this). It is kept if the socket is bound to a port
(socket/udp_socket.h:62-63, or a send), otherwise it is lost. -/
def arrive (sender : Endpoint) (bytes : Bytes) (s : UDPSocket) : UDPSocket :=
  if s.isOpen && s.bound then { s with inbox := s.inbox ++ [(sender, bytes)] } else s

/-- Receive again and again (socket/udp_socket.h:89-94), into buffers of the given sizes, as long as there is something. -/
def receiveAll : List Nat → Prog UDPSocket (List Bytes)
  | [] => pure []
  | n :: ns => do
    match ← receive n with
    | none => pure []
    | some b => do
      let bs ← receiveAll ns
      pure (b :: bs)

end UDPSocket

/-- `TCPSocket` (socket/tcp_socket.h:45-98). `isOpen` and `peer` (connected to) are the state of `socket_` (line 97); `sent`
lists what was sent to whom, `inbox` is what has arrived and was not received yet. -/
structure TCPSocket where
  isOpen : Bool
  peer : Option Endpoint
  sent : List (Endpoint × Bytes)
  inbox : Bytes
  deriving DecidableEq, Repr

namespace TCPSocket

/-- The constructor (socket/tcp_socket.h:49). -/
def new : TCPSocket := ⟨false, none, [], []⟩

/-- `boost::asio::connect(socket_, iterator)` (socket/tcp_socket.h:61): for each endpoint, the socket is closed, opened again
and connected, until that works; otherwise the last error is thrown. -/
def connect (env : OpenEnv) : List Endpoint → Prog TCPSocket Unit
  | [] => fun s => (.throw systemError, s)
  | ep :: rest => fun s =>
    if !env.creates then connect env rest { s with isOpen := false, peer := none, inbox := [] }
    else if env.connects ep then (.ok (), { s with isOpen := true, peer := some ep, inbox := [] })
    else connect env rest { s with isOpen := true, peer := none, inbox := [] }

/-- `open` (socket/tcp_socket.h:56-62). -/
def «open» (env : OpenEnv) : Prog TCPSocket Unit := fun s =>
  match env.resolved with
  | [] => (.throw systemError, s)
  | eps => connect env eps s

/-- `close` (socket/tcp_socket.h:67-70), as for UDP. -/
def close (works : Bool) : Prog TCPSocket Unit := fun s =>
  (if s.isOpen && !works then .throw systemError else .ok (), { s with isOpen := false, peer := none, inbox := [] })

/-- `send` (socket/tcp_socket.h:77-80): fails on a closed or unconnected socket. `accepts` is the number of bytes the system
takes (`none`: an error). -/
def send (bytes : Bytes) (accepts : Option Nat) : Prog TCPSocket Nat := fun s =>
  match s.isOpen, s.peer, accepts with
  | true, some p, some k =>
    (.ok (min k bytes.length), { s with sent := s.sent ++ [(p, bytes.take (min k bytes.length))] })
  | _, _, _ => (.throw systemError, s)

/-- `receive` (socket/tcp_socket.h:87-91) into a buffer of `n` bytes: fails on a closed or unconnected socket. `delivers` is
the number of bytes the system would like to hand over, at least one is (`none`: the peer has closed the connection, or
another error). Result `none`: the call waits. -/
def receive (n : Nat) (delivers : Option Nat) : Prog TCPSocket (Option Bytes) := fun s =>
  match s.isOpen, s.peer, delivers with
  | true, some _, some k =>
    if s.inbox = [] then (.ok none, s)
    else (.ok (some (s.inbox.take (min n (max 1 k)))), { s with inbox := s.inbox.drop (min n (max 1 k)) })
  | _, _, _ => (.throw systemError, s)

/-- Bytes arrive from the peer (not a call: the network does this). Without a connection (socket/tcp_socket.h:61) there is no
peer. -/
def arrive (bytes : Bytes) (s : TCPSocket) : TCPSocket :=
  match s.isOpen, s.peer with
  | true, some _ => { s with inbox := s.inbox ++ bytes }
  | _, _ => s

end TCPSocket

end Eip
