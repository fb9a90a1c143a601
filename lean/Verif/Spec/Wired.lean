import Verif.Model.Wired
/-
Terms used to state properties of a session over the library's sockets.
-/
namespace Eip.Spec
open Eip

/-- Sockets that have just been made. -/
def Sockets.Fresh (k : Sockets) : Prop := k.tcp = TCPSocket.new ∧ ∃ here, k.udp = UDPSocket.new here

/-- A caller that opens the session only when it is not open. The flag says whether it is. -/
def OpensWhenClosed : Bool → List (Op × Res Unit) → Prop
  | _, [] => True
  | isOpen, (.open _ _ _, r) :: rest => isOpen = false ∧ OpensWhenClosed (match r with | .ok _ => true | _ => false) rest
  | isOpen, (.close, r) :: rest => OpensWhenClosed (match r with | .ok _ => false | _ => isOpen) rest
  | isOpen, _ :: rest => OpensWhenClosed isOpen rest

/-- Host name, port and I/O port of the last `open` that returned normally. -/
def lastOpened : Option (String × String × String) → List (Op × Res Unit) → Option (String × String × String)
  | x, [] => x
  | _, (.open host port ioPort, .ok _) :: rest => lastOpened (some (host, port, ioPort)) rest
  | x, _ :: rest => lastOpened x rest

/-- The control socket is connected to an endpoint known under the given name and port, and the I/O socket sends to the first
endpoint known under the name and the I/O port. -/
structure RoutedTo (dns : String → String → List Endpoint) (k : Sockets) (host port ioPort : String) : Prop where
  tcpOpen : k.tcp.isOpen = true
  peer : ∃ ep ∈ dns host port, k.tcp.peer = some ep
  udpOpen : k.udp.isOpen = true
  remote : (dns host ioPort).head? = some k.udp.remoteEndpoint

/-- The bytes that arrived for the control socket, in order. -/
def arrivedBytes : List NetAct → Bytes
  | [] => []
  | .bytes b :: as => b ++ arrivedBytes as
  | _ :: as => arrivedBytes as

/-- The bytes the session received from the control socket, in order. -/
def receivedBytes : List NetAct → Bytes
  | [] => []
  | .call (.received .tcp b true) :: as => b ++ receivedBytes as
  | _ :: as => receivedBytes as

/-- The datagrams that arrived for the I/O socket, in order. -/
def arrivedDatagrams : List NetAct → List Bytes
  | [] => []
  | .datagram _ b :: as => b :: arrivedDatagrams as
  | _ :: as => arrivedDatagrams as

/-- The datagrams the session received from the I/O socket, in order. -/
def receivedDatagrams : List NetAct → List Bytes
  | [] => []
  | .call (.received .io b true) :: as => b :: receivedDatagrams as
  | _ :: as => receivedDatagrams as

end Eip.Spec
