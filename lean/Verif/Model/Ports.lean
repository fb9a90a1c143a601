import Verif.Model.Wired
/-
Several sessions in one program: what their sockets share is the table of UDP ports of the machine, because `UDPSocket::open`
binds its socket to a port the caller has chosen.
-/
namespace Eip

/-- The port an I/O socket is bound to: none, one the system has chosen (no other socket has it), or the one of the
constructor (socket/udp_socket.h:49-50, 63). -/
inductive Binding
  | none
  | chosen
  | at (ep : Endpoint)
  deriving DecidableEq, Repr

/-- The sockets of several sessions (session.h:209-210) and the ports of their I/O sockets. `ι` names the sessions. -/
structure Machine (ι : Type) where
  sockets : ι → Sockets
  binding : ι → Binding

/-- Two local endpoints that cannot both be in use (`bind` at socket/udp_socket.h:63, no option is set before it): the same
port, and the same address or 0.0.0.0, which is the default (line 49). Port 0 lets the system choose. -/
def Clash (a b : Endpoint) : Prop :=
  a.port = b.port ∧ a.port ≠ 0 ∧ (a.address = b.address ∨ a.address = 0 ∨ b.address = 0)

/-- The port of an I/O socket after a call (socket/udp_socket.h:63 `bind`, 71 `close`, 81 `send_to`). -/
def Binding.after (b : Binding) (here : Endpoint) : Ev → Binding
  | .opened .io _ _ true => if here.port = 0 then .chosen else .at here
  | .closed .io _ => .none
  | .sent .io _ true => if b = .none then .chosen else b
  | _ => b

/-- May the system let this call of session `i` succeed? Only `bind` (socket/udp_socket.h:63) depends on other sockets: the
endpoint must not be in use. It may also fail because of other programs. -/
def Machine.Allows {ι : Type} (m : Machine ι) (i : ι) : Ev → Prop
  | .opened .io _ _ true => ∀ j, j ≠ i → ∀ ep, m.binding j = .at ep → ¬ Clash ep (m.sockets i).udp.localEndpoint
  | _ => True

/-- Where a datagram is sent: to an endpoint, or to the port the system has chosen for a session (socket/udp_socket.h:92). -/
inductive Addressee (ι : Type)
  | endpoint (ep : Endpoint)
  | chosen (i : ι)

/-- Does the I/O socket of session `i` get the datagram (socket/udp_socket.h:63, 92)? -/
def Machine.Takes {ι : Type} (m : Machine ι) (to : Addressee ι) (i : ι) : Prop :=
  match to, m.binding i with
  | .endpoint ep, .at here => ep.port = here.port ∧ (here.address = 0 ∨ ep.address = here.address)
  | .chosen j, .chosen => j = i
  | _, _ => False

/-- Something happens on the machine: a session makes a socket call, bytes arrive over its connection, or a datagram arrives
(socket/tcp_socket.h:97, socket/udp_socket.h:97). -/
inductive MachineAct (ι : Type)
  | call (i : ι) (ev : Ev)
  | bytes (i : ι) (b : Bytes)
  | datagram (to : Addressee ι) (sender : Endpoint) (b : Bytes)

/-- What can happen on the machine (socket/tcp_socket.h:56-91, socket/udp_socket.h:57-94): calls as `Happens` has them if the
system allows them; a datagram goes to every socket that takes it. -/
inductive MachineStep {ι : Type} (dns : String → String → List Endpoint) : Machine ι → MachineAct ι → Machine ι → Prop
  | call {m m' : Machine ι} (i : ι) (ev : Ev) (allowed : m.Allows i ev)
      (own : Happens dns (m.sockets i) (.call ev) (m'.sockets i))
      (port : m'.binding i = (m.binding i).after (m.sockets i).udp.localEndpoint ev)
      (others : ∀ j, j ≠ i → m'.sockets j = m.sockets j ∧ m'.binding j = m.binding j) :
      MachineStep dns m (.call i ev) m'
  | bytes {m m' : Machine ι} (i : ι) (b : Bytes) (own : Happens dns (m.sockets i) (.bytes b) (m'.sockets i))
      (port : m'.binding = m.binding) (others : ∀ j, j ≠ i → m'.sockets j = m.sockets j) :
      MachineStep dns m (.bytes i b) m'
  | datagram {m m' : Machine ι} (to : Addressee ι) (sender : Endpoint) (b : Bytes) (port : m'.binding = m.binding)
      (taken : ∀ i, m.Takes to i → Happens dns (m.sockets i) (.datagram sender b) (m'.sockets i))
      (others : ∀ i, ¬ m.Takes to i → m'.sockets i = m.sockets i) :
      MachineStep dns m (.datagram to sender b) m'

/-- Several things happen, one after the other (socket/tcp_socket.h:45-98, socket/udp_socket.h:45-100). -/
inductive MachineRun {ι : Type} (dns : String → String → List Endpoint) : Machine ι → List (MachineAct ι) → Machine ι → Prop
  | nil (m : Machine ι) : MachineRun dns m [] m
  | cons {m m' m'' : Machine ι} {a : MachineAct ι} {as : List (MachineAct ι)} (h : MachineStep dns m a m')
      (t : MachineRun dns m' as m'') : MachineRun dns m (a :: as) m''

end Eip
