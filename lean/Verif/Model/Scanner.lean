import Verif.Model.CPF
import Verif.Model.Items
import Verif.Model.Session
/-
src/io_scanner.cpp: the list identity scanner.
-/
namespace Eip

/-- What the scanner does to the outside world: datagrams sent, devices reported in the log. -/
inductive ScanEv
  /-- `send_to(buffer, endpoint)` (src/io_scanner.cpp:72): resolved host name, port, contents, and whether it worked -/
  | sentTo (host port : String) (bytes : Bytes) (ok : Bool)
  /-- the messages of src/io_scanner.cpp:142-152 -/
  | reported (id : IdentityItemData)
  deriving DecidableEq, Repr

/-- `IOScanner` (io_scanner.h:43-74) with its `io_service`: `receives` counts the receive operations that have been
started and not yet completed. Simplification: the socket itself and `device_endpoint_` have no other state. -/
structure Scanner where
  hostname : String
  receives : Nat
  log : List ScanEv
  deriving DecidableEq, Repr

/-- A completed receive operation: an error, or a datagram of which at most `recv_buf_.size()` bytes are kept
(io_scanner.h:73). -/
inductive Arrival
  | error
  | datagram (data : Bytes)
  deriving DecidableEq, Repr

/-- What the outside world does to the scanner: does the name resolve, is the request sent; and what uninitialised memory
contains. -/
structure ScanEnv where
  resolves : Bool
  sends : Bool
  junk : UInt8
  id : IdentityItemData

namespace Scanner

/-- `EIP_CMD_LIST_IDENTITY` (eip_types.h:63). -/
def cmdListIdentity : UInt16 := 0x0063
/-- `EIP_ITEM_LIST_IDENTITY_RESPONSE` (eip_types.h:87). -/
def itemListIdentity : UInt16 := 0x000C

/-- The constructor (src/io_scanner.cpp:49-59): opens the socket and starts one receive operation. Simplification:
opening the socket does not fail. -/
def new (hostname : String) : Scanner := ⟨hostname, 1, []⟩

/-- `sendListIdentityRequest` (src/io_scanner.cpp:61-74). -/
def sendListIdentityRequest (env : ScanEnv) : Prog Scanner Unit := fun s =>
  if !env.resolves then (.throw systemError, s)
  else
    match (EncapPacket.new cmdListIdentity).serialize (.buffer (BufferWriter.new (List.replicate 128 env.junk))) with
    | (.ok (), .buffer w) =>
      let s' := { s with log := s.log ++ [.sentTo s.hostname "44818" (w.memory.take w.byteCount) env.sends] }
      if env.sends then (.ok (), s') else (.throw systemError, s')
    | (.ok (), .stream _) => (.ok (), s)
    | (.throw e, _) => (.throw e, s)
    | (.ub u, _) => (.ub u, s)

/-- The body of the `try` in `handleListIdentityResponse` (src/io_scanner.cpp:85-152). Simplification: warnings and error
messages are not modelled, only the report of a device (lines 142-152). -/
def handleDatagram (env : ScanEnv) (bytes : Bytes) : Prog Scanner Unit := do
  let pkt ← Session.parsePacket bytes
  if pkt.header.command ≠ cmdListIdentity then pure ()
  else do
    let payload ← Session.onLocal ⟨[]⟩ (pkt.getPayloadAs CPFPacket.cls)
    if payload.getItemCount.toNat < 1 then pure ()
    else
      match payload.items with
      | [] => Prog.raise (logicError "vector::_M_range_check")
      | item :: _ =>
        if item.itemType ≠ itemListIdentity then pure ()
        else do
          let id ← Session.onLocal { env.id with productName := [] } (item.getDataAs IdentityItemData.cls)
          Prog.modify (fun s => { s with log := s.log ++ [.reported id] })

/-- `handleListIdentityResponse` (src/io_scanner.cpp:76-158). -/
def handleListIdentityResponse (env : ScanEnv) : Arrival → Prog Scanner Unit
  | .error => pure ()
  | .datagram data =>
    Prog.tryCatch (handleDatagram env (data.take 4096))
      (fun e => if e.kind.isA .lengthError then pure () else Prog.raise e)

/-- `io_service::run()` (src/io_scanner.cpp:164) when the given things arrive: as long as there is an unfinished
receive operation, it waits for the next arrival and calls the handler; it returns when there is none. The result says
what has not been received (`none`: still waiting for more). Exceptions of the handler leave `run`. -/
def runService (env : ScanEnv) : List Arrival → Prog Scanner (Option (List Arrival))
  | [] => fun s =>
    match s.receives with
    | 0 => (.ok (some []), s)
    | _ + 1 => (.ok none, s)
  | a :: rest => fun s =>
    match s.receives with
    | 0 => (.ok (some (a :: rest)), s)
    | n + 1 =>
      match handleListIdentityResponse env a { s with receives := n } with
      | (.ok (), s') => runService env rest s'
      | (.throw e, s') => (.throw e, s')
      | (.ub u, s') => (.ub u, s')

/-- `run` (src/io_scanner.cpp:160-165). -/
def run (env : ScanEnv) (arrivals : List Arrival) : Prog Scanner (Option (List Arrival)) := do
  sendListIdentityRequest env
  runService env arrivals

end Scanner
end Eip
