import Verif.Model.Session
import Verif.Model.Sockets
/-
Which results the socket calls of a session can have on an ordinary network, in terms of the calls and their results only.
-/
namespace Eip.Spec
open Eip

/-- What matters of the two sockets: whether the control socket is open and whether it is connected, whether the I/O socket is open, and whether
it has a local port at which something can arrive. -/
structure Line where
  tcpOpen : Bool
  connected : Bool
  ioOpen : Bool
  ioBound : Bool
  deriving DecidableEq, Repr

/-- Nothing is open. -/
def Line.down : Line := ⟨false, false, false, false⟩

/-- What one socket call can come to. `dns` says under which names and ports somebody can be found. A connected control
socket delivers any bytes, but at least one; an I/O socket with a port delivers any datagram. Closing an open socket may
report an error, but the socket is closed in any case. The bytes of a receive that fails mean nothing. -/
inductive Can (dns : String → String → List Endpoint) : Line → Ev → Line → Prop
  | connects (l : Line) (host port : String) (known : dns host port ≠ []) :
      Can dns l (.opened .tcp host port true) { l with tcpOpen := true, connected := true }
  | unresolved (l : Line) (s : Sock) (host port : String) : Can dns l (.opened s host port false) l
  | refused (l : Line) (host port : String) (known : dns host port ≠ []) (isOpen : Bool) :
      Can dns l (.opened .tcp host port false) { l with tcpOpen := isOpen, connected := false }
  | opens (l : Line) (host port : String) (known : dns host port ≠ []) (closed : l.ioOpen = false) :
      Can dns l (.opened .io host port true) { l with ioOpen := true, ioBound := true }
  | portTaken (l : Line) (host port : String) (known : dns host port ≠ []) (closed : l.ioOpen = false) :
      Can dns l (.opened .io host port false) { l with ioOpen := true, ioBound := false }
  | disconnects (l : Line) : Can dns l (.closed .tcp true) { l with tcpOpen := false, connected := false }
  | disconnectFails (l : Line) (isOpen : l.tcpOpen = true) :
      Can dns l (.closed .tcp false) { l with tcpOpen := false, connected := false }
  | closes (l : Line) : Can dns l (.closed .io true) { l with ioOpen := false, ioBound := false }
  | closeFails (l : Line) (isOpen : l.ioOpen = true) : Can dns l (.closed .io false) { l with ioOpen := false, ioBound := false }
  | sends (l : Line) (b : Bytes) (connected : l.connected = true) : Can dns l (.sent .tcp b true) l
  | sendsIO (l : Line) (b : Bytes) (isOpen : l.ioOpen = true) : Can dns l (.sent .io b true) { l with ioBound := true }
  | unsent (l : Line) (s : Sock) (b : Bytes) : Can dns l (.sent s b false) l
  | receives (l : Line) (b : Bytes) (connected : l.connected = true) (some : b ≠ []) (fits : b.length ≤ 4096) :
      Can dns l (.received .tcp b true) l
  | receivesIO (l : Line) (b : Bytes) (isOpen : l.ioOpen = true) (bound : l.ioBound = true) (fits : b.length ≤ 4096) :
      Can dns l (.received .io b true) l
  | lost (l : Line) (b : Bytes) : Can dns l (.received .tcp b false) l
  | unopened (l : Line) (b : Bytes) (closed : l.ioOpen = false) : Can dns l (.received .io b false) l

/-- The same for a sequence of calls. -/
inductive CanAll (dns : String → String → List Endpoint) : Line → List Ev → Line → Prop
  | nil (l : Line) : CanAll dns l [] l
  | cons {l l' l'' : Line} {e : Ev} {es : List Ev} (h : Can dns l e l') (t : CanAll dns l' es l'') :
      CanAll dns l (e :: es) l''

end Eip.Spec
