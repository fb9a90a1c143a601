import Verif.Model.Log
/-
src/io_scanner.cpp once more, with the messages it logs.
-/
namespace Eip

/-- A scanner and the messages logged so far, oldest first. -/
structure LogScanner where
  s : Scanner
  log : List LogMsg

/-- A log call of the scanner. -/
def tell (m : LogMsg) : Prog LogScanner Unit := Prog.modify (fun s => { s with log := s.log ++ [m] })

/-- A log call under a condition. -/
def tellIf (c : Prop) [Decidable c] (m : LogMsg) : Prog LogScanner Unit := if c then tell m else pure ()

/-- Several log calls. -/
def tellAll : List LogMsg → Prog LogScanner Unit
  | [] => pure ()
  | m :: ms => do
    tell m
    tellAll ms

/-- Code of the scanner without log calls. -/
def untold {α : Type} (p : Prog Scanner α) : Prog LogScanner α := Prog.zoom (·.s) (fun x s => { s with s := x }) p

namespace Scanner.Logged

/-- `inet_ntoa` (src/io_scanner.cpp:144): the four bytes of `sin_addr`, in the order of memory, in dotted decimal
notation. Simplification: the static buffer it returns is not modelled. -/
def inetNtoa (addr : UInt32) : String :=
  toString (addr.toNat % 256) ++ "." ++ toString (addr.toNat / 256 % 256) ++ "." ++
    toString (addr.toNat / 65536 % 256) ++ "." ++ toString (addr.toNat / 16777216 % 256)

/-- `ntohs` (src/io_scanner.cpp:144) on a little-endian host: the two bytes swapped. -/
def ntohs (port : UInt16) : UInt16 := UInt16.ofNat (port.toNat % 256 * 256 + port.toNat / 256)

/-- The messages about a device (src/io_scanner.cpp:142-152). -/
def report (id : IdentityItemData) : List LogMsg :=
  [.idMessage, .idVersion id.encapProtocolVersion, .idAddress (inetNtoa id.sockaddr.addr) (ntohs id.sockaddr.port),
    .idVendor id.vendorId, .idDeviceType id.deviceType, .idProductCode id.productCode,
    .idRevision id.revision.1 id.revision.2, .idStatus id.status, .idSerial id.serialNumber, .idName id.productName,
    .idState id.state]

/-- The constructor (src/io_scanner.cpp:49-59). -/
def new (hostname : String) : LogScanner := ⟨Scanner.new hostname, [.scanOpening, .scanDone]⟩

/-- `sendListIdentityRequest` (src/io_scanner.cpp:61-74). -/
def sendListIdentityRequest (env : ScanEnv) : Prog LogScanner Unit := do
  tell .scanSending
  untold (Scanner.sendListIdentityRequest env)
  tell .scanDone

/-- The body of the `try` in `handleListIdentityResponse` (src/io_scanner.cpp:85-152). -/
def handleDatagram (env : ScanEnv) (bytes : Bytes) : Prog LogScanner Unit := do
  let (pkt, used) ← Session.Logged.parsePacket bytes
  tellIf (used ≠ bytes.length) (.packetUnused (UInt64.ofNat bytes.length) (UInt64.ofNat used))
  if pkt.header.command ≠ cmdListIdentity then tell (.scanCommand cmdListIdentity pkt.header.command)
  else do
    tellIf (pkt.header.sessionHandle ≠ 0) (.scanHandle pkt.header.sessionHandle)
    tellIf (pkt.header.status ≠ 0) (.status pkt.header.status)
    tellIf (pkt.header.context.1 ≠ 0 ∨ pkt.header.context.2 ≠ 0)
      (.scanContext pkt.header.context.1 pkt.header.context.2)
    tellIf (pkt.header.options ≠ 0) (.options pkt.header.options)
    let payload ← Session.onLocal ⟨[]⟩ (pkt.getPayloadAs CPFPacket.cls)
    if payload.getItemCount.toNat < 1 then tell .scanNoItems
    else do
      tellIf (payload.getItemCount.toNat > 1) (.scanMoreItems payload.getItemCount)
      match payload.items with
      | [] => Prog.raise (logicError "vector::_M_range_check")
      | item :: _ =>
        if item.itemType ≠ itemListIdentity then tell (.scanItemType itemListIdentity item.itemType)
        else do
          let id ← Session.onLocal { env.id with productName := [] } (item.getDataAs IdentityItemData.cls)
          tellAll (report id)
          untold (Prog.modify (fun s => { s with log := s.log ++ [.reported id] }))

/-- `handleListIdentityResponse` (src/io_scanner.cpp:76-158). -/
def handleListIdentityResponse (env : ScanEnv) : Arrival → Prog LogScanner Unit
  | .error => tell .scanError
  | .datagram data =>
    Prog.tryCatch (handleDatagram env (data.take 4096))
      (fun e => if e.kind.isA .lengthError then tell .scanShort else Prog.raise e)

/-- `io_service::run()` (src/io_scanner.cpp:164); see `Scanner.runService`. -/
def runService (env : ScanEnv) : List Arrival → Prog LogScanner (Option (List Arrival))
  | [] => fun s =>
    match s.s.receives with
    | 0 => (.ok (some []), s)
    | _ + 1 => (.ok none, s)
  | a :: rest => fun s =>
    match s.s.receives with
    | 0 => (.ok (some (a :: rest)), s)
    | n + 1 =>
      match handleListIdentityResponse env a { s with s := { s.s with receives := n } } with
      | (.ok (), s') => runService env rest s'
      | (.throw e, s') => (.throw e, s')
      | (.ub u, s') => (.ub u, s')

/-- `run` (src/io_scanner.cpp:160-165). -/
def run (env : ScanEnv) (arrivals : List Arrival) : Prog LogScanner (Option (List Arrival)) := do
  sendListIdentityRequest env
  tell .scanWaiting
  runService env arrivals

end Scanner.Logged
end Eip
