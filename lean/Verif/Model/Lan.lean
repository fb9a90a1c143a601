import Verif.Model.Scanner
import Verif.Model.Sockets
/-
src/io_scanner.cpp on a network: the scanner's own socket, the addresses it sends to and the devices that hear it.
-/
namespace Eip

/-- The machine a scanner runs on and its network. `resolved`: the IPv4 addresses that `resolve` finds for the scanner's host
name (src/io_scanner.cpp:64-66); `creates`: can a socket be opened (line 53); `broadcast`: the addresses that mean every host
of a network; `accepts`: would the system take a datagram for this address (is there a route, is there room). -/
structure Lan where
  resolved : List Nat
  creates : Bool
  broadcast : Nat → Bool
  accepts : Nat → Bool

/-- `IOScanner` (io_scanner.h:43-74) with what its `socket_` has of state: `mayBroadcast` is the option SO_BROADCAST, `bound`
tells whether the socket has a port, `sent` lists the datagrams the network was given. -/
structure LanScanner where
  scanner : Scanner
  mayBroadcast : Bool
  bound : Bool
  sent : List (Endpoint × Bytes)

/-- A datagram on its way to the scanner, with its sender. -/
structure Mail where
  sender : Nat
  data : Bytes
  deriving DecidableEq, Repr

namespace LanScanner

/-- The constructor (src/io_scanner.cpp:49-59): `socket_.open` throws if the system has no socket to give. A new socket may
not send to broadcast addresses; the code sets no option. -/
def new (lan : Lan) (hostname : String) : Res LanScanner :=
  if lan.creates then .ok ⟨Scanner.new hostname, false, false, []⟩ else .throw systemError

/-- `socket_.send_to` (src/io_scanner.cpp:72): the system refuses broadcast addresses (EACCES) unless the option is set, and
gives a socket without a port one of its own choice. -/
def sendTo (lan : Lan) (dest : Endpoint) (bytes : Bytes) : Prog LanScanner Unit := fun s =>
  if lan.broadcast dest.address && !s.mayBroadcast then (.throw systemError, s)
  else if !lan.accepts dest.address then (.throw systemError, s)
  else (.ok (), { s with bound := true, sent := s.sent ++ [(dest, bytes)] })

/-- `sendListIdentityRequest` (src/io_scanner.cpp:61-74): the first result of `resolve` is used. `junk`: what the uninitialised
array `d` of line 69 contains. -/
def sendListIdentityRequest (lan : Lan) (junk : UInt8) : Prog LanScanner Unit := fun s =>
  match lan.resolved with
  | [] => (.throw systemError, s)
  | a :: _ =>
    match (EncapPacket.new Scanner.cmdListIdentity).serialize (.buffer (BufferWriter.new (List.replicate 128 junk))) with
    | (.ok (), .buffer w) => sendTo lan ⟨a, 44818⟩ (w.memory.take w.byteCount) s
    | (.ok (), .stream _) => (.ok (), s)
    | (.throw e, _) => (.throw e, s)
    | (.ub u, _) => (.ub u, s)

/-- `io_service::run()` (src/io_scanner.cpp:164) while the given mail comes in: `async_receive_from` (lines 54-57) stores the
sender in `device_endpoint_`, which nobody looks at. A socket without a port gets nothing. The result is the mail that has not
been received, `none` if the scanner still waits. -/
def runService (env : ScanEnv) : List Mail → Prog LanScanner (Option (List Mail))
  | [] => fun s =>
    match s.scanner.receives with
    | 0 => (.ok (some []), s)
    | _ + 1 => (.ok none, s)
  | m :: rest => fun s =>
    match s.scanner.receives with
    | 0 => (.ok (some (m :: rest)), s)
    | n + 1 =>
      if !s.bound then runService env rest s
      else
        match Scanner.handleListIdentityResponse env (.datagram m.data) { s.scanner with receives := n } with
        | (.ok (), c) => runService env rest { s with scanner := c }
        | (.throw e, c) => (.throw e, { s with scanner := c })
        | (.ub u, c) => (.ub u, { s with scanner := c })

/-- `run` (src/io_scanner.cpp:160-165). -/
def run (lan : Lan) (env : ScanEnv) (mail : List Mail) : Prog LanScanner (Option (List Mail)) := do
  sendListIdentityRequest lan env.junk
  runService env mail

/-- A scanner is made and run (src/io_scanner.cpp:49-59, 160-165). If it cannot be made, there is nothing to run. -/
def scan (lan : Lan) (env : ScanEnv) (hostname : String) (mail : List Mail) :
    Res (Option (List Mail)) × Option LanScanner :=
  match new lan hostname with
  | .ok s => ((run lan env mail s).1, some (run lan env mail s).2)
  | .throw e => (.throw e, none)
  | .ub u => (.ub u, none)

end LanScanner
end Eip
