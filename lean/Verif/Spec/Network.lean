import Verif.Spec.Device
import Verif.Model.Wired
/-
A device at the other end of the library's sockets: its answers are bytes that arrive.
-/
namespace Eip.Spec
open Eip

/-- Everything that happens to the sockets of a session whose control connection leads to a device, as long as the network
does not cut the device's answers into pieces: after each request one answer arrives, and one receive takes as many bytes as
arrived (which bytes it gets is for the socket to say). That the whole request has reached the device is part of this: its
answer is an answer to that request. Nothing else arrives on the control connection. A request to
unregister is not answered. Nothing is required of the I/O socket. -/
inductive ServedBy : Device → List NetAct → Device → Prop
  | nil (d : Device) : ServedBy d [] d
  | exchange {d d1 d' : Device} {request reply data : Bytes} {rest : List NetAct} (h : Serves d request reply d1)
      (whole : data.length = reply.length) (more : ServedBy d1 rest d') :
      ServedBy d (.call (.sent .tcp request true) :: .bytes reply :: .call (.received .tcp data true) :: rest) d'
  | unregister {d d' : Device} {rest : List NetAct} (more : ServedBy { d with handle := 0, conns := [] } rest d') :
      ServedBy d (.call (.sent .tcp (request 0x66 d.handle []) true) :: rest) d'
  | opened {d d' : Device} {rest : List NetAct} (s : Sock) (host port : String) (more : ServedBy d rest d') :
      ServedBy d (.call (.opened s host port true) :: rest) d'
  | closed {d d' : Device} {rest : List NetAct} (s : Sock) (more : ServedBy d rest d') :
      ServedBy d (.call (.closed s true) :: rest) d'
  | ioSent {d d' : Device} {rest : List NetAct} (bytes : Bytes) (ok : Bool) (more : ServedBy d rest d') :
      ServedBy d (.call (.sent .io bytes ok) :: rest) d'
  | ioReceived {d d' : Device} {rest : List NetAct} (bytes : Bytes) (ok : Bool) (more : ServedBy d rest d') :
      ServedBy d (.call (.received .io bytes ok) :: rest) d'
  | datagram {d d' : Device} {rest : List NetAct} (sender : Endpoint) (bytes : Bytes) (more : ServedBy d rest d') :
      ServedBy d (.datagram sender bytes :: rest) d'

end Eip.Spec
