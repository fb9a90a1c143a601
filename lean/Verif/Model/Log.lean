import Verif.Model.Scanner
/-
The log: what src/session.cpp, src/connection.cpp, src/rr_data.cpp and src/io_scanner.cpp pass to console_bridge (and to
`printf`), when they do so, and what comes out of it. The functions of this file are those of `Verif.Model.Session`
once more, with their log messages.
-/
namespace Eip

/-! ### Messages -/

/-- The level of a message: `CONSOLE_BRIDGE_logDebug`, `logInform`, `logWarn`, `logError`, or printed to the standard output
(src/connection.cpp:133, src/io_scanner.cpp:156). -/
inductive Level
  | debug
  | inform
  | warn
  | error
  | print
  deriving DecidableEq, Repr

/-- The log calls of the library, with the values of their arguments. The comments give the lines. -/
inductive LogMsg
  /-- src/session.cpp:62 -/
  | generated (id : UInt32) (sn : UInt16)
  /-- src/session.cpp:82 -/
  | resolving
  /-- src/session.cpp:87 -/
  | registering
  /-- src/session.cpp:101 -/
  | registrationUnparsed (what : String)
  /-- src/session.cpp:108 -/
  | registrationError (what : String)
  /-- src/session.cpp:114 -/
  | registrationSize (expected : UInt64) (received : UInt16)
  /-- src/session.cpp:126 -/
  | registrationShort
  /-- src/session.cpp:130 -/
  | registrationIgnored (what : String)
  /-- src/session.cpp:135 -/
  | wrongVersion (expected received : UInt16)
  /-- src/session.cpp:143 -/
  | registrationOptions (options : UInt16)
  /-- src/session.cpp:147 -/
  | opened (id : UInt32)
  /-- src/session.cpp:153 -/
  | closing
  /-- src/session.cpp:159 -/
  | closed
  /-- src/session.cpp:168 -/
  | sendingCommand
  /-- src/session.cpp:171 -/
  | waiting
  /-- src/session.cpp:173 -/
  | receivedResponse (n : UInt64)
  /-- src/session.cpp:181, src/io_scanner.cpp:92 -/
  | packetUnused (n used : UInt64)
  /-- src/session.cpp:193 -/
  | wrongCommand (expected received : UInt16)
  /-- src/session.cpp:199 -/
  | zeroHandle (handle : UInt32)
  /-- src/session.cpp:204 -/
  | wrongHandle (expected received : UInt32)
  /-- src/session.cpp:210, src/io_scanner.cpp:107 -/
  | status (status : UInt32)
  /-- src/session.cpp:214 -/
  | context (c0 c1 : UInt32)
  /-- src/session.cpp:219, src/io_scanner.cpp:116 -/
  | options (options : UInt32)
  /-- src/session.cpp:243 -/
  | creatingRequest
  /-- src/session.cpp:256 -/
  | responseShort (what : String)
  /-- src/session.cpp:261 -/
  | responseInvalid (what : String)
  /-- src/session.cpp:272 -/
  | responseDataShort (what : String)
  /-- src/session.cpp:277 -/
  | responseDataInvalid (what : String)
  /-- src/session.cpp:284 -/
  | wrongService (expected received : UInt8)
  /-- src/session.cpp:290 -/
  | commandFailed (status : UInt8)
  /-- src/session.cpp:312 -/
  | forwardOpenInvalid
  /-- src/session.cpp:328 -/
  | forwardCloseInvalid
  /-- src/session.cpp:337 -/
  | receivingIO
  /-- src/session.cpp:339 -/
  | receivedIO (n : UInt64)
  /-- src/session.cpp:347 -/
  | ioUnused (n used : UInt64)
  /-- src/session.cpp:355 -/
  | sendingIO
  /-- src/rr_data.cpp:64 -/
  | moreItems
  /-- src/connection.cpp:113 -/
  | replacingOToT (ours theirs : UInt32)
  /-- src/connection.cpp:119 -/
  | replacingTToO (ours theirs : UInt32)
  /-- src/connection.cpp:133 -/
  | comparing (ours theirs : UInt16)
  /-- src/io_scanner.cpp:52 -/
  | scanOpening
  /-- src/io_scanner.cpp:58, 73 -/
  | scanDone
  /-- src/io_scanner.cpp:63 -/
  | scanSending
  /-- src/io_scanner.cpp:81 -/
  | scanError
  /-- src/io_scanner.cpp:97 -/
  | scanCommand (expected received : UInt16)
  /-- src/io_scanner.cpp:103 -/
  | scanHandle (handle : UInt32)
  /-- src/io_scanner.cpp:111 -/
  | scanContext (c0 c1 : UInt32)
  /-- src/io_scanner.cpp:124 -/
  | scanNoItems
  /-- src/io_scanner.cpp:129 -/
  | scanMoreItems (count : UInt16)
  /-- src/io_scanner.cpp:134 -/
  | scanItemType (expected received : UInt16)
  /-- src/io_scanner.cpp:142 -/
  | idMessage
  /-- src/io_scanner.cpp:143 -/
  | idVersion (v : UInt16)
  /-- src/io_scanner.cpp:144: the address as `inet_ntoa` prints it, and the port in host order -/
  | idAddress (address : String) (port : UInt16)
  /-- src/io_scanner.cpp:145 -/
  | idVendor (v : UInt16)
  /-- src/io_scanner.cpp:146 -/
  | idDeviceType (v : UInt16)
  /-- src/io_scanner.cpp:147 -/
  | idProductCode (v : UInt16)
  /-- src/io_scanner.cpp:148 -/
  | idRevision (major minor : UInt8)
  /-- src/io_scanner.cpp:149 -/
  | idStatus (v : UInt16)
  /-- src/io_scanner.cpp:150 -/
  | idSerial (v : UInt32)
  /-- src/io_scanner.cpp:151 -/
  | idName (name : Bytes)
  /-- src/io_scanner.cpp:152 -/
  | idState (v : UInt8)
  /-- src/io_scanner.cpp:156 -/
  | scanShort
  /-- src/io_scanner.cpp:163 -/
  | scanWaiting
  deriving DecidableEq, Repr

/-- The macro used in each log call; see the lines given at `LogMsg`. -/
def LogMsg.level : LogMsg → Level
  | .generated .. | .resolving | .registering | .opened _ | .closing | .closed => .inform
  | .registrationUnparsed _ | .registrationError _ | .wrongVersion .. | .wrongCommand .. | .zeroHandle _
  | .wrongHandle .. | .responseShort _ | .responseInvalid _ | .responseDataShort _ | .responseDataInvalid _
  | .commandFailed _ | .forwardOpenInvalid | .forwardCloseInvalid => .error
  | .registrationSize .. | .registrationShort | .registrationIgnored _ | .registrationOptions _ | .packetUnused ..
  | .status _ | .context .. | .options _ | .wrongService .. | .ioUnused .. | .moreItems => .warn
  | .sendingCommand | .waiting | .receivedResponse _ | .creatingRequest | .receivingIO | .receivedIO _ | .sendingIO =>
    .debug
  | .replacingOToT .. | .replacingTToO .. => .inform
  | .comparing .. => .print
  | .scanOpening | .scanDone | .scanSending | .scanWaiting | .idMessage | .idVersion _ | .idAddress .. | .idVendor _
  | .idDeviceType _ | .idProductCode _ | .idRevision .. | .idStatus _ | .idSerial _ | .idName _ | .idState _ => .inform
  | .scanError | .scanCommand .. | .scanNoItems | .scanItemType .. => .error
  | .scanHandle _ | .scanContext .. | .scanMoreItems _ => .warn
  | .scanShort => .print

/-! ### Formatting -/

/-- A conversion specification: `%d`, `%u`, `%zu`, `%08X`, `%s`. -/
inductive Conv
  | d
  | u
  | zu
  | x
  | s
  deriving DecidableEq, Repr

/-- A format string, cut at its conversion specifications. -/
inductive Piece
  | text (t : String)
  | conv (c : Conv)
  deriving DecidableEq, Repr

/-- An argument of a variadic function after the default argument promotions: `word` is an `int` or `unsigned` (also what
the 8- and 16-bit types and enumerations are promoted to), `size` a `size_t`, `str` a `const char*` to the given
characters without the terminating zero, and without other zeros, `chars` a `const char*` to characters that may include
zeros. -/
inductive Arg
  | word (v : UInt32)
  | size (v : UInt64)
  | str (s : String)
  | chars (bs : Bytes)
  deriving DecidableEq, Repr

/-- What the language and the calling convention leave open in a variadic call: every argument takes 64 bits, of which a
32-bit argument fills only the lower half (x86-64 System V), and pointers are arbitrary. -/
structure Frame where
  upper : Nat → UInt32
  address : Nat → UInt64

/-- The 64 bits passed for argument `i`. -/
def Frame.slot (f : Frame) (i : Nat) : Arg → Nat
  | .word v => v.toNat + 2 ^ 32 * (f.upper i).toNat
  | .size v => v.toNat
  | .str _ => (f.address i).toNat
  | .chars _ => (f.address i).toNat

/-- A part of a formatted message: literal text, a decimal or hexadecimal number, a string. The characters are in
`Verif.Model.Lines`. -/
inductive Shown
  | text (t : String)
  | dec (n : Int)
  | hex (n : Nat)
  | str (s : String)
  | chars (bs : Bytes)
  deriving DecidableEq, Repr

/-- The `int` with the given low 32 bits. -/
def signed32 (n : Nat) : Int := if n % 2 ^ 32 < 2 ^ 31 then (n % 2 ^ 32 : Nat) else (n % 2 ^ 32 : Nat) - (2 ^ 32 : Int)

/-- What `vsnprintf` (called by console_bridge) makes of argument `i`. By the language, a conversion that does not fit the
type of the argument has undefined behaviour; here it does what it does on x86-64, using the 64 bits that were passed.
`none`: a pointer is followed that is none. -/
def Conv.show (f : Frame) (i : Nat) : Conv → Arg → Option Shown
  | .d, a => some (.dec (signed32 (f.slot i a)))
  | .u, a => some (.dec (f.slot i a % 2 ^ 32 : Nat))
  | .zu, a => some (.dec (f.slot i a))
  | .x, a => some (.hex (f.slot i a % 2 ^ 32))
  | .s, .str str => some (.str str)
  | .s, .chars bs => some (.chars (bs.takeWhile (· ≠ 0)))
  | .s, .word _ => none
  | .s, .size _ => none

/-- `vsnprintf` from argument `i` on. Nothing is cut off here; console_bridge has room for 1023 characters
(`Verif.Model.Lines`). -/
def format (f : Frame) (i : Nat) : List Piece → List Arg → Option (List Shown)
  | [], _ => some []
  | .text t :: ps, as => (format f i ps as).map (.text t :: ·)
  | .conv _ :: _, [] => none
  | .conv c :: ps, a :: as => do
    let x ← c.show f i a
    let xs ← format f (i + 1) ps as
    pure (x :: xs)

/-- An `EIP_UINT` argument, promoted to `int`. -/
def Arg.u16 (v : UInt16) : Arg := .word v.toUInt32
/-- An `EIP_USINT` argument, promoted to `int`. -/
def Arg.u8 (v : UInt8) : Arg := .word v.toUInt32

/-- The format string and the arguments of each log call; see the lines given at `LogMsg`. -/
def LogMsg.call : LogMsg → List Piece × List Arg
  | .generated id sn => ([.text "Generated starting connection ID ", .conv .zu, .text " and SN ", .conv .zu],
      [.word id, .u16 sn])
  | .resolving => ([.text "Resolving hostname and connecting socket"], [])
  | .registering => ([.text "Creating and sending the registration message"], [])
  | .registrationUnparsed w => ([.text "Could not parse response when registering session: ", .conv .s], [.str w])
  | .registrationError w => ([.text "Error in registration response: ", .conv .s], [.str w])
  | .registrationSize e r =>
    ([.text "Registration message received with wrong size. Expected ", .conv .zu, .text " bytes, received ", .conv .u],
      [.size e, .u16 r])
  | .registrationShort => ([.text "Registration message too short, ignoring"], [])
  | .registrationIgnored w => ([.text "Could not parse registration response: ", .conv .s], [.str w])
  | .wrongVersion e r =>
    ([.text "Error: Wrong Ethernet Industrial Protocol Version. Expected ", .conv .u, .text " got ", .conv .u],
      [.u16 e, .u16 r])
  | .registrationOptions o =>
    ([.text "Registration message included non-zero options flags: ", .conv .u], [.u16 o])
  | .opened id => ([.text "Successfully opened session ID ", .conv .zu], [.word id])
  | .closing => ([.text "Closing session"], [])
  | .closed => ([.text "Session closed"], [])
  | .sendingCommand => ([.text "Sending Command"], [])
  | .waiting => ([.text "Waiting for response"], [])
  | .receivedResponse n => ([.text "Received response of ", .conv .zu, .text " bytes"], [.size n])
  | .packetUnused n u =>
    ([.text "Packet received with ", .conv .zu, .text " bytes, but only ", .conv .zu, .text " bytes used"],
      [.size n, .size u])
  | .wrongCommand e r =>
    ([.text "Reply received with wrong command. Expected ", .conv .u, .text " received ", .conv .u], [.u16 e, .u16 r])
  | .zeroHandle h => ([.text "Zero session handle received on registration: ", .conv .zu], [.word h])
  | .wrongHandle e r =>
    ([.text "Reply received with wrong session ID. Expected ", .conv .zu, .text ", received ", .conv .zu],
      [.word e, .word r])
  | .status s => ([.text "Non-zero status received: ", .conv .zu], [.word s])
  | .context a b =>
    ([.text "Non-zero sender context received: ", .conv .zu, .text "/", .conv .zu], [.word a, .word b])
  | .options o => ([.text "Non-zero options received: ", .conv .zu], [.word o])
  | .creatingRequest => ([.text "Creating RR Data Request"], [])
  | .responseShort w => ([.text "Response packet to RR command too short: ", .conv .s], [.str w])
  | .responseInvalid w => ([.text "Invalid response to RR command: ", .conv .s], [.str w])
  | .responseDataShort w => ([.text "Response data to RR command too short: ", .conv .s], [.str w])
  | .responseDataInvalid w => ([.text "Invalid data to RR command: ", .conv .s], [.str w])
  | .wrongService e r =>
    ([.text "Wrong service code returned for RR Data command. Expected: ", .conv .d, .text " but received ", .conv .d],
      [.u8 e, .u8 r])
  | .commandFailed s => ([.text "RR Data Command failed with status ", .conv .d], [.u8 s])
  | .forwardOpenInvalid => ([.text "Received invalid response to forward open request"], [])
  | .forwardCloseInvalid => ([.text "Received invalid response to forward close request"], [])
  | .receivingIO => ([.text "Receiving IO packet"], [])
  | .receivedIO n => ([.text "Received IO of ", .conv .zu, .text " bytes"], [.size n])
  | .ioUnused n u =>
    ([.text "IO packet received with ", .conv .zu, .text " bytes, but only ", .conv .zu, .text " bytes used"],
      [.size n, .size u])
  | .sendingIO => ([.text "Sending CPF Packet on IO Socket"], [])
  | .moreItems => ([.text "More than 2 items in RR data response"], [])
  | .replacingOToT a b =>
    ([.text "Replacing our o_to_t connection ID (", .conv .zu, .text ") with connection ID provided by target (",
      .conv .zu, .text ")"], [.word a, .word b])
  | .replacingTToO a b =>
    ([.text "Replacing our t_to_o connection ID (", .conv .zu, .text ") with connection ID provided by target (",
      .conv .zu, .text ")"], [.word a, .word b])
  | .comparing a b => ([.text "Connection SN: 0x", .conv .x, .text " vs 0x", .conv .x, .text "\n"], [.u16 a, .u16 b])
  | .scanOpening => ([.text "Opening UDP socket... "], [])
  | .scanDone => ([.text "done."], [])
  | .scanSending => ([.text "Sending List Identity Request... "], [])
  | .scanError => ([.text "Error receiving list identity response message"], [])
  | .scanCommand e r =>
    ([.text "Reply received with wrong command. Expected ", .conv .u, .text ", received ", .conv .u], [.u16 e, .u16 r])
  | .scanHandle h => ([.text "Non-zero session handle received: ", .conv .zu], [.word h])
  | .scanContext a b =>
    ([.text "Non-zero sender context received: ", .conv .zu, .text ", ", .conv .zu], [.word a, .word b])
  | .scanNoItems => ([.text "No items in list identity payload!"], [])
  | .scanMoreItems n => ([.text "More than one item in list identity payload ", .conv .u], [.u16 n])
  | .scanItemType e r =>
    ([.text "Error: Payload response received with the wrong item type. Expected: ", .conv .zu, .text ", received ",
      .conv .zu], [.u16 e, .u16 r])
  | .idMessage => ([.text "=== Received ID Message ==="], [])
  | .idVersion v => ([.text "Encapsulation Protocol Version: ", .conv .d], [.u16 v])
  | .idAddress a p => ([.text "Address: ", .conv .d, .text " : ", .conv .d], [.str a, .u16 p])
  | .idVendor v => ([.text "Vendor ID: ", .conv .d], [.u16 v])
  | .idDeviceType v => ([.text "Device Type: ", .conv .d], [.u16 v])
  | .idProductCode v => ([.text "Product Code: ", .conv .d], [.u16 v])
  | .idRevision a b => ([.text "Revision: ", .conv .d, .text ".", .conv .d], [.u8 a, .u8 b])
  | .idStatus v => ([.text "Status: ", .conv .d], [.u16 v])
  | .idSerial v => ([.text "Serial Number: ", .conv .d], [.word v])
  | .idName n => ([.text "Product Name: ", .conv .s], [.chars n])
  | .idState v => ([.text "State: ", .conv .d], [.u8 v])
  | .scanShort => ([.text "ERROR: Packet too short for identity response\n"], [])
  | .scanWaiting => ([.text "Waiting for responses."], [])

/-- What a log call puts into the log (console_bridge `log` with `vsnprintf`); see the lines given at `LogMsg`. -/
def LogMsg.text (m : LogMsg) (f : Frame) : Option (List Shown) := format f 0 m.call.1 m.call.2

/-! ### Sessions with a log -/

/-- A session with its sockets (`World`) and the messages logged so far, oldest first. -/
structure LogWorld where
  w : World
  log : List LogMsg

/-- A log call. -/
def say (m : LogMsg) : Prog LogWorld Unit := Prog.modify (fun s => { s with log := s.log ++ [m] })

/-- A log call under a condition: `if (c) CONSOLE_BRIDGE_log...(m);`. -/
def sayIf (c : Prop) [Decidable c] (m : LogMsg) : Prog LogWorld Unit := if c then say m else pure ()

/-- Code without log calls. -/
def quiet {α : Type} (p : Prog World α) : Prog LogWorld α := Prog.zoom (·.w) (fun w s => { s with w := w }) p

namespace Session.Logged

/-- The constructor (src/session.cpp:51-63): the first message of a session. -/
def new (vendorId : UInt16) (serialNum : UInt32) (sn : UInt16) (id : UInt32) (mem : Bytes) : Session × List LogMsg :=
  (Session.new vendorId serialNum sn id mem, [.generated id sn])

/-- `catchLengthLogic` with handlers that look at the exception (src/session.cpp:97-110, 124-131, 254-279). -/
def catchLengthLogic {σ α : Type} (p : Prog σ α) (onLength onLogic : Exn → Prog σ α) : Prog σ α :=
  Prog.tryCatch p (fun e =>
    if e.kind.isA .lengthError then onLength e
    else if e.kind.isA .logicError then onLogic e
    else Prog.raise e)

/-- `check_packet` (src/session.cpp:188-221). -/
def checkPacket (pkt : EncapPacket) (expCmd : UInt16) : Prog LogWorld Unit := do
  let s ← Prog.get
  if pkt.header.command ≠ expCmd then do
    say (.wrongCommand expCmd pkt.header.command)
    Prog.raise (logicError "Reply received with wrong command")
  else if s.w.s.sessionId = 0 ∧ pkt.header.sessionHandle = 0 then do
    say (.zeroHandle pkt.header.sessionHandle)
    Prog.raise (logicError "Zero session handle received on registration")
  else if s.w.s.sessionId ≠ 0 ∧ pkt.header.sessionHandle ≠ s.w.s.sessionId then do
    say (.wrongHandle s.w.s.sessionId pkt.header.sessionHandle)
    Prog.raise (logicError "Wrong session ID received for command")
  else do
    sayIf (pkt.header.status ≠ 0) (.status pkt.header.status)
    sayIf (pkt.header.context.1 ≠ 0 ∨ pkt.header.context.2 ≠ 0) (.context pkt.header.context.1 pkt.header.context.2)
    sayIf (pkt.header.options ≠ 0) (.options pkt.header.options)

/-- `result.deserialize(reader)` and `reader.getByteCount()` (src/session.cpp:175-179). -/
def parsePacket {σ : Type} (bytes : Bytes) : Prog σ (EncapPacket × Nat) := fun w =>
  match EncapPacket.deserialize (EncapPacket.new, .buffer (BufferReader.new bytes)) with
  | (.ok (), (p, r)) => (.ok (p, r.getByteCount), w)
  | (.throw e, _) => (.throw e, w)
  | (.ub u, _) => (.ub u, w)

/-- `sendCommand` (src/session.cpp:166-186). -/
def sendCommand (req : EncapPacket) : Prog LogWorld EncapPacket := do
  say .sendingCommand
  let _ ← quiet (sockSend .tcp req.obj)
  say .waiting
  let bytes ← quiet (sockReceive .tcp)
  say (.receivedResponse (UInt64.ofNat bytes.length))
  let (result, used) ← parsePacket bytes
  sayIf (used ≠ bytes.length) (.packetUnused (UInt64.ofNat bytes.length) (UInt64.ofNat used))
  checkPacket result req.header.command
  pure result

/-- The part of `open` that looks at the data of the registration reply (src/session.cpp:112-131). -/
def parseRegistration (response : EncapPacket) : Prog LogWorld (Option RegisterSessionData) := do
  sayIf (response.header.length.toNat ≠ RegisterSessionData.new.getLength)
    (.registrationSize (UInt64.ofNat RegisterSessionData.new.getLength) response.header.length)
  catchLengthLogic
    (do
      let d ← Session.onLocal RegisterSessionData.new (response.getPayloadAs RegisterSessionData.cls)
      pure (some d))
    (fun _ => do
      say .registrationShort
      pure none)
    (fun e => do
      say (.registrationIgnored e.what)
      pure none)

/-- `open` (src/session.cpp:80-148). -/
def «open» (hostname port ioPort : String) : Prog LogWorld Unit := do
  say .resolving
  quiet (sockOpen .tcp hostname port)
  quiet (sockOpen .io hostname ioPort)
  say .registering
  let regMsg := EncapPacket.withPayload cmdRegisterSession 0 (some RegisterSessionData.new.obj)
  let response ← catchLengthLogic (sendCommand regMsg)
    (fun e => do
      quiet closeSockets
      say (.registrationUnparsed e.what)
      Prog.raise (runtimeError "Invalid response received registering session"))
    (fun e => do
      quiet closeSockets
      say (.registrationError e.what)
      Prog.raise (runtimeError "Error in registration response"))
  let regData ← parseRegistration response
  match regData with
  | some d =>
    if d.protocolVersion ≠ eipProtocolVersion then do
      say (.wrongVersion eipProtocolVersion d.protocolVersion)
      quiet closeSockets
      Prog.raise (runtimeError "Received wrong Ethernet IP Protocol Version on registration")
    else do
      sayIf (d.options ≠ 0) (.registrationOptions d.options)
      quiet (Prog.modify (fun w => { w with s := { w.s with sessionId := response.header.sessionHandle } }))
      say (.opened response.header.sessionHandle)
  | none => do
    quiet (Prog.modify (fun w => { w with s := { w.s with sessionId := response.header.sessionHandle } }))
    say (.opened response.header.sessionHandle)

/-- `close` (src/session.cpp:150-164). -/
def close : Prog LogWorld Unit := do
  say .closing
  let s ← Prog.get
  let _ ← quiet (sockSend .tcp (EncapPacket.new cmdUnregisterSession s.w.s.sessionId).obj)
  say .closed
  quiet closeSockets
  quiet (Prog.modify (fun w => { w with s := { w.s with sessionId := 0 } }))

/-- `~Session` (src/session.cpp:65-78). -/
def destroy : Prog LogWorld Unit :=
  Prog.tryCatch
    (do
      let s ← Prog.get
      if s.w.s.sessionId ≠ 0 then close else pure ())
    (fun _ => pure ())

/-- Whether parsing the payload of an RR data reply logs the warning of src/rr_data.cpp:62-65: the interface handle, the
timeout and the items could be read (lines 52-55) and there are more than two items. The payload of a packet that was
received is null or a raw buffer. -/
def moreThanTwo (response : EncapPacket) : Bool :=
  match response.payload.bind (·.asBuffer) with
  | none => false
  | some bytes =>
    let p : Prog (RRData × Reader) CPFPacket := do
      readMember .u32 (·.interfaceHandle) (fun v r => { r with interfaceHandle := v })
      readMember .u16 (·.timeout) (fun v r => { r with timeout := v })
      RRData.parseCPF
    match p (RRData.new, .buffer (BufferReader.new bytes)) with
    | (.ok pkt, _) => pkt.getItemCount.toNat > 2
    | _ => false

/-- `response.getPayloadAs(resp_data)` (src/session.cpp:268). -/
def parseResponse (response : EncapPacket) : Prog LogWorld RRDataResponse := do
  sayIf (moreThanTwo response) .moreItems
  Session.onLocal RRDataResponse.new (response.getPayloadAs RRDataResponse.cls)

/-- `sendRRDataCommand` (src/session.cpp:240-294). -/
def sendRRDataCommand (service : UInt8) (path : Path) (data : Option Obj) : Prog LogWorld RRDataResponse := do
  say .creatingRequest
  let s ← Prog.get
  let reqData := RRDataRequest.new service path data
  let encapPkt := EncapPacket.withPayload cmdSendRRData s.w.s.sessionId (some reqData.obj)
  let response ← catchLengthLogic (sendCommand encapPkt)
    (fun e => do
      say (.responseShort e.what)
      Prog.raise (runtimeError "Packet response to RR Data Command too short"))
    (fun e => do
      say (.responseInvalid e.what)
      Prog.raise (runtimeError "Invalid packet response to RR Data Command"))
  let respData ← catchLengthLogic (parseResponse response)
    (fun e => do
      say (.responseDataShort e.what)
      Prog.raise (runtimeError "Response data to RR Command too short"))
    (fun e => do
      say (.responseDataInvalid e.what)
      Prog.raise (runtimeError "Invalid data in response to RR command"))
  sayIf (respData.getServiceCode ≠ service ||| 0x80) (.wrongService service respData.getServiceCode)
  if respData.getGeneralStatus ≠ 0 then do
    say (.commandFailed respData.getGeneralStatus)
    Prog.raise (runtimeError "RR Data Command Failed")
  else pure respData

/-- `getSingleAttributeSerializable` (src/session.cpp:223-231); `result` is the first component. -/
def getSingleAttributeSerializable {δ : Type} (c : Class δ) (classId instanceId attributeId : UInt8) :
    Prog (δ × LogWorld) Unit := do
  let respData ← Prog.zoom (·.2) (fun w s => (s.1, w))
    (sendRRDataCommand 0x0E (Path.mk3 classId instanceId attributeId) none)
  Prog.zoom (·.1) (fun d s => (d, s.2)) (respData.getResponseDataAs c)

/-- `setSingleAttributeSerializable` (src/session.cpp:233-238). -/
def setSingleAttributeSerializable (classId instanceId attributeId : UInt8) (data : Option Obj) :
    Prog LogWorld Unit := do
  let _ ← sendRRDataCommand 0x10 (Path.mk3 classId instanceId attributeId) data

/-- The messages of `verifyForwardOpenResult` (src/connection.cpp:103-126). -/
def verifyMessages (c : Connection) (result : ForwardOpenSuccess) : List LogMsg :=
  if result.connectionSn ≠ c.connectionSn ∨ result.originatorVendorId ≠ c.originatorVendorId
      ∨ result.originatorSn ≠ c.originatorSn then []
  else
    (if result.oToTConnectionId ≠ c.oToTConnectionId then
      [.replacingOToT c.oToTConnectionId result.oToTConnectionId] else []) ++
    (if result.tToOConnectionId ≠ c.tToOConnectionId then
      [.replacingTToO c.tToOConnectionId result.tToOConnectionId] else [])

/-- Several log calls. -/
def sayAll : List LogMsg → Prog LogWorld Unit
  | [] => pure ()
  | m :: ms => do
    say m
    sayAll ms

/-- `createConnection` (src/session.cpp:296-318). -/
def createConnection (oToT tToO : ConnectionInfo) : Prog LogWorld Int := do
  let s ← Prog.get
  let conn := prepareConnection s.w.s oToT tToO
  quiet (Prog.modify (fun w => { w with s := { w.s with
    nextConnectionSn := w.s.nextConnectionSn + 1
    nextConnectionId := w.s.nextConnectionId + 1 + 1 } }))
  let respData ← sendRRDataCommand 0x5B (Path.mk2 0x06 1) (some conn.createForwardOpenRequest.obj)
  let result ← Session.onLocal freshForwardOpenSuccess (respData.getResponseDataAs ForwardOpenSuccess.cls)
  sayAll (verifyMessages conn result)
  match conn.verifyForwardOpenResult result with
  | (false, _) => do
    say .forwardOpenInvalid
    Prog.raise (logicError "Forward Open Response Invalid")
  | (true, conn') => do
    quiet (Prog.modify (fun w => { w with s := { w.s with connections := w.s.connections ++ [conn'] } }))
    let s ← Prog.get
    pure (sizeToInt (sizeSub s.w.s.connections.length 1))

/-- `closeConnection` (src/session.cpp:320-333). -/
def closeConnection (n : Nat) : Prog LogWorld Unit := do
  let s ← Prog.get
  match s.w.s.connections[n]? with
  | none => Prog.undef .indexOutOfRange
  | some c => do
    let respData ← sendRRDataCommand 0x4E (Path.mk2 0x06 1) (some c.createForwardCloseRequest.obj)
    let result ← Session.onLocal freshForwardCloseSuccess (respData.getResponseDataAs ForwardCloseSuccess.cls)
    let s ← Prog.get
    match s.w.s.connections[n]? with
    | none => Prog.undef .indexOutOfRange
    | some c => do
      say (.comparing c.connectionSn result.connectionSn)
      if c.verifyForwardCloseResult result then
        quiet (Prog.modify (fun w => { w with s := { w.s with connections := w.s.connections.eraseIdx n } }))
      else do
        say .forwardCloseInvalid
        Prog.raise (logicError "Forward Close Response Invalid")

/-- `result.deserialize(reader)` and `reader.getByteCount()` (src/session.cpp:341-345). -/
def parseIO {σ : Type} (bytes : Bytes) : Prog σ (CPFPacket × Nat) := fun s =>
  match CPFPacket.deserialize (⟨[]⟩, .buffer (BufferReader.new bytes)) with
  | (.ok (), (p, r)) => (.ok (p, r.getByteCount), s)
  | (.throw e, _) => (.throw e, s)
  | (.ub u, _) => (.ub u, s)

/-- `receiveIOPacket` (src/session.cpp:335-351). -/
def receiveIOPacket : Prog LogWorld CPFPacket := do
  say .receivingIO
  let bytes ← quiet (sockReceive .io)
  say (.receivedIO (UInt64.ofNat bytes.length))
  let (result, used) ← parseIO bytes
  sayIf (used ≠ bytes.length) (.ioUnused (UInt64.ofNat bytes.length) (UInt64.ofNat used))
  pure result

/-- `sendIOPacket` (src/session.cpp:353-357). -/
def sendIOPacket (pkt : CPFPacket) : Prog LogWorld Unit := do
  say .sendingIO
  let _ ← quiet (sockSend .io pkt.obj)

end Session.Logged

/-- Run one call (session.h:83-204) with its log; the result value is dropped. -/
def Op.runLogged : Op → Prog LogWorld Unit
  | .open h p i => Session.Logged.open h p i
  | .close => Session.Logged.close
  | .getAttribute _ c init x y z => fun s =>
    match Session.Logged.getSingleAttributeSerializable c x y z (init, s) with
    | (r, (_, s')) => (r, s')
  | .setAttribute x y z d => Session.Logged.setSingleAttributeSerializable x y z d
  | .createConnection o t => (Session.Logged.createConnection o t).forget
  | .closeConnection n => Session.Logged.closeConnection n
  | .getConnection n => quiet (Session.getConnection n).forget
  | .receiveIOPacket => Session.Logged.receiveIOPacket.forget
  | .sendIOPacket p => Session.Logged.sendIOPacket p

end Eip
