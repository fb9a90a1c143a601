import Verif.Model.Log
import Verif.Spec.Session
/-
What the log should say. Only data types of the model are used, and the level of each message.
-/
namespace Eip.Spec
open Eip

/-- What a message should show, whatever the machine. -/
def intended : LogMsg → List Shown
  | .generated id sn =>
    [.text "Generated starting connection ID ", .dec id.toNat, .text " and SN ", .dec sn.toNat]
  | .resolving => [.text "Resolving hostname and connecting socket"]
  | .registering => [.text "Creating and sending the registration message"]
  | .registrationUnparsed what => [.text "Could not parse response when registering session: ", .str what]
  | .registrationError what => [.text "Error in registration response: ", .str what]
  | .registrationSize e r =>
    [.text "Registration message received with wrong size. Expected ", .dec e.toNat, .text " bytes, received ",
      .dec r.toNat]
  | .registrationShort => [.text "Registration message too short, ignoring"]
  | .registrationIgnored what => [.text "Could not parse registration response: ", .str what]
  | .wrongVersion e r =>
    [.text "Error: Wrong Ethernet Industrial Protocol Version. Expected ", .dec e.toNat, .text " got ", .dec r.toNat]
  | .registrationOptions o => [.text "Registration message included non-zero options flags: ", .dec o.toNat]
  | .opened id => [.text "Successfully opened session ID ", .dec id.toNat]
  | .closing => [.text "Closing session"]
  | .closed => [.text "Session closed"]
  | .sendingCommand => [.text "Sending Command"]
  | .waiting => [.text "Waiting for response"]
  | .receivedResponse n => [.text "Received response of ", .dec n.toNat, .text " bytes"]
  | .packetUnused n u =>
    [.text "Packet received with ", .dec n.toNat, .text " bytes, but only ", .dec u.toNat, .text " bytes used"]
  | .wrongCommand e r =>
    [.text "Reply received with wrong command. Expected ", .dec e.toNat, .text " received ", .dec r.toNat]
  | .zeroHandle h => [.text "Zero session handle received on registration: ", .dec h.toNat]
  | .wrongHandle e r =>
    [.text "Reply received with wrong session ID. Expected ", .dec e.toNat, .text ", received ", .dec r.toNat]
  | .status s => [.text "Non-zero status received: ", .dec s.toNat]
  | .context a b => [.text "Non-zero sender context received: ", .dec a.toNat, .text "/", .dec b.toNat]
  | .options o => [.text "Non-zero options received: ", .dec o.toNat]
  | .creatingRequest => [.text "Creating RR Data Request"]
  | .responseShort what => [.text "Response packet to RR command too short: ", .str what]
  | .responseInvalid what => [.text "Invalid response to RR command: ", .str what]
  | .responseDataShort what => [.text "Response data to RR command too short: ", .str what]
  | .responseDataInvalid what => [.text "Invalid data to RR command: ", .str what]
  | .wrongService e r =>
    [.text "Wrong service code returned for RR Data command. Expected: ", .dec e.toNat, .text " but received ",
      .dec r.toNat]
  | .commandFailed s => [.text "RR Data Command failed with status ", .dec s.toNat]
  | .forwardOpenInvalid => [.text "Received invalid response to forward open request"]
  | .forwardCloseInvalid => [.text "Received invalid response to forward close request"]
  | .receivingIO => [.text "Receiving IO packet"]
  | .receivedIO n => [.text "Received IO of ", .dec n.toNat, .text " bytes"]
  | .ioUnused n u =>
    [.text "IO packet received with ", .dec n.toNat, .text " bytes, but only ", .dec u.toNat, .text " bytes used"]
  | .sendingIO => [.text "Sending CPF Packet on IO Socket"]
  | .moreItems => [.text "More than 2 items in RR data response"]
  | .replacingOToT a b =>
    [.text "Replacing our o_to_t connection ID (", .dec a.toNat, .text ") with connection ID provided by target (",
      .dec b.toNat, .text ")"]
  | .replacingTToO a b =>
    [.text "Replacing our t_to_o connection ID (", .dec a.toNat, .text ") with connection ID provided by target (",
      .dec b.toNat, .text ")"]
  | .comparing a b => [.text "Connection SN: 0x", .hex a.toNat, .text " vs 0x", .hex b.toNat, .text "\n"]
  | .scanOpening => [.text "Opening UDP socket... "]
  | .scanDone => [.text "done."]
  | .scanSending => [.text "Sending List Identity Request... "]
  | .scanError => [.text "Error receiving list identity response message"]
  | .scanCommand e r =>
    [.text "Reply received with wrong command. Expected ", .dec e.toNat, .text ", received ", .dec r.toNat]
  | .scanHandle h => [.text "Non-zero session handle received: ", .dec h.toNat]
  | .scanContext a b => [.text "Non-zero sender context received: ", .dec a.toNat, .text ", ", .dec b.toNat]
  | .scanNoItems => [.text "No items in list identity payload!"]
  | .scanMoreItems n => [.text "More than one item in list identity payload ", .dec n.toNat]
  | .scanItemType e r =>
    [.text "Error: Payload response received with the wrong item type. Expected: ", .dec e.toNat, .text ", received ",
      .dec r.toNat]
  | .idMessage => [.text "=== Received ID Message ==="]
  | .idVersion v => [.text "Encapsulation Protocol Version: ", .dec v.toNat]
  | .idAddress a p => [.text "Address: ", .str a, .text " : ", .dec p.toNat]
  | .idVendor v => [.text "Vendor ID: ", .dec v.toNat]
  | .idDeviceType v => [.text "Device Type: ", .dec v.toNat]
  | .idProductCode v => [.text "Product Code: ", .dec v.toNat]
  | .idRevision a b => [.text "Revision: ", .dec a.toNat, .text ".", .dec b.toNat]
  | .idStatus v => [.text "Status: ", .dec v.toNat]
  | .idSerial v => [.text "Serial Number: ", .dec v.toNat]
  | .idName n => [.text "Product Name: ", .chars n]
  | .idState v => [.text "State: ", .dec v.toNat]
  | .scanShort => [.text "ERROR: Packet too short for identity response\n"]
  | .scanWaiting => [.text "Waiting for responses."]

/-- The messages that are shown as intended on every machine: not those that print a 32-bit or 16-bit number as a
`size_t`, nor the one that prints the address of a string instead of the string; a serial number only if it fits
an `int`, a name only if it has no zero characters. -/
def ShownRight : LogMsg → Prop
  | .generated .. | .opened _ | .zeroHandle _ | .wrongHandle .. | .status _ | .context .. | .options _
  | .replacingOToT .. | .replacingTToO .. | .scanHandle _ | .scanContext .. | .scanItemType .. | .idAddress .. => False
  | .idSerial v => v.toNat < 2 ^ 31
  | .idName n => 0 ∉ n
  | _ => True

/-- The messages that are shown as intended if numbers of 32 bits are passed with zeros in front: not the address, a
serial number only if it fits an `int`, a name only if it has no zero characters. -/
def ShownClean : LogMsg → Prop
  | .idAddress .. => False
  | .idSerial v => v.toNat < 2 ^ 31
  | .idName n => 0 ∉ n
  | _ => True

/-- Is there an error message among these? -/
def Complains (ms : List LogMsg) : Prop := ∃ m ∈ ms, m.level = .error

/-- The exceptions a session makes up itself: runtime errors, and the two logic errors for replies about connections
that do not match. -/
def Reported (e : Exn) : Prop :=
  e.kind = .runtimeError ∨ e = logicError "Forward Open Response Invalid" ∨ e = logicError "Forward Close Response Invalid"

/-- Code that does not throw such exceptions. -/
def Calm {σ α : Type} (p : Prog σ α) : Prop := ∀ s e s', p s = (.throw e, s') → ¬ Reported e

/-- A call whose arguments behave: data to be sent can be serialized, and parsing into an object throws none of the
exceptions that a session makes up itself. -/
def Tame : Op → Prop
  | .getAttribute _ c _ _ _ _ => ∀ n, Calm (c.runLen n)
  | .setAttribute _ _ _ data => ∃ bs, EncodesOpt data bs
  | .sendIOPacket p => ∃ bs, Encodes p.obj bs
  | _ => True

/-- A message, if the condition holds. -/
def when (c : Prop) [Decidable c] (m : LogMsg) : List LogMsg := if c then [m] else []

/-- The warnings a reply frame deserves: bytes after the frame, and header fields that should be zero. -/
def frameWarnings (h : EncapHeader) (payload tail : Bytes) : List LogMsg :=
  when (tail ≠ []) (.packetUnused (UInt64.ofNat (24 + payload.length + tail.length)) (UInt64.ofNat (24 + payload.length)))
    ++ when (h.status ≠ 0) (.status h.status)
    ++ when (h.context ≠ (0, 0)) (.context h.context.1 h.context.2)
    ++ when (h.options ≠ 0) (.options h.options)

/-- The warnings a reply to a request with this service deserves, apart from those of the frame: items after the
unconnected message, and a service code that is not the one of the request with the top bit set. -/
def replyWarnings (service : UInt8) (more : List (UInt16 × Bytes)) (replied : UInt8) : List LogMsg :=
  when (more ≠ []) .moreItems ++ when (replied ≠ service ||| 0x80) (.wrongService service replied)

/-- The frame at the start of `bytes`: header, payload and what follows. -/
def Frames (bytes : Bytes) (h : EncapHeader) (payload tail : Bytes) : Prop :=
  h.length.toNat = payload.length ∧ bytes = header h ++ payload ++ tail

/-- `payload` is RR data with a message router response, and these items after it. -/
def Replies (payload : Bytes) (service status : UInt8) (data : Bytes) (more : List (UInt16 × Bytes)) : Prop :=
  ∃ (handle : UInt32) (timeout : UInt16) (reserved k : UInt8) (additional tail : Bytes),
    additional.length = 2 * k.toNat ∧
    CpfOk ((0x0000, []) :: (0x00B2, mrReply service reserved status k additional data) :: more) ∧
    payload = le 4 handle.toNat ++ le 2 timeout.toNat ++
      cpf ((0x0000, []) :: (0x00B2, mrReply service reserved status k additional data) :: more) ++ tail

/-- `payload` is RR data with these items, all complete. -/
def HoldsItems (payload : Bytes) (items : List (UInt16 × Bytes)) : Prop :=
  ∃ (handle : UInt32) (timeout : UInt16) (tail : Bytes), CpfOk items ∧
    payload = le 4 handle.toNat ++ le 2 timeout.toNat ++ cpf items ++ tail

/-- What is wrong with items that are not a null address and an unconnected message. -/
inductive WrongItems : List (UInt16 × Bytes) → String → Prop
  | few {l : List (UInt16 × Bytes)} (h : l.length < 2) : WrongItems l "Not enough items in RR Data"
  | address {t : UInt16} {p : Bytes} {x : UInt16 × Bytes} {more : List (UInt16 × Bytes)} (h : t ≠ 0x0000) :
      WrongItems ((t, p) :: x :: more) "Address other than null in RR Data"
  | addressData {p : Bytes} {x : UInt16 × Bytes} {more : List (UInt16 × Bytes)} (h : p ≠ []) :
      WrongItems ((0x0000, p) :: x :: more) "Data length greater than zero in null address type"
  | data {t : UInt16} {p : Bytes} {more : List (UInt16 × Bytes)} (h : t ≠ 0x00B2) :
      WrongItems ((0x0000, []) :: (t, p) :: more) "Unexpected data type in RR Data"

/-- `body` is too short to be a message router response. -/
def TooShort (body : Bytes) : Prop :=
  ∀ (service reserved status k : UInt8) (additional data : Bytes), additional.length = 2 * k.toNat →
    body ≠ mrReply service reserved status k additional data

/-- Why a frame is refused by a session with this id that waits for this command: the error that is logged and the text
of the exception. -/
inductive Refused (id : UInt32) (cmd : UInt16) (h : EncapHeader) : LogMsg → String → Prop
  | command (hc : h.command ≠ cmd) : Refused id cmd h (.wrongCommand cmd h.command) "Reply received with wrong command"
  | zero (hc : h.command = cmd) (hi : id = 0) (hz : h.sessionHandle = 0) :
      Refused id cmd h (.zeroHandle 0) "Zero session handle received on registration"
  | handle (hc : h.command = cmd) (hi : id ≠ 0) (hz : h.sessionHandle ≠ id) :
      Refused id cmd h (.wrongHandle id h.sessionHandle) "Wrong session ID received for command"

/-- The number of bytes received, as it is logged. -/
def size (bytes : Bytes) : UInt64 := UInt64.ofNat bytes.length

/-- `bytes` is an acceptable reply to a request with service `service` on a session with this id: a message router
response with these contents, which deserves these warnings. -/
def Answered (service : UInt8) (id : UInt32) (bytes : Bytes) (replied status : UInt8) (data : Bytes)
    (warnings : List LogMsg) : Prop :=
  ∃ h payload tail more, Frames bytes h payload tail ∧ h.command = 0x6F ∧ Acceptable id h.sessionHandle ∧
    Replies payload replied status data more ∧ warnings = frameWarnings h payload tail ++ replyWarnings service more replied

/-- The messages of a command that got these bytes as a reply, before the reply is looked at. -/
def asking (bytes : Bytes) : List LogMsg := [.creatingRequest, .sendingCommand, .waiting, .receivedResponse (size bytes)]

/-- The service code of a command. -/
def serviceOf : Op → UInt8
  | .getAttribute .. => 0x0E
  | .setAttribute .. => 0x10
  | .createConnection .. => 0x5B
  | .closeConnection _ => 0x4E
  | _ => 0

/-- What a call logs: `p` run on a session without messages. -/
def logOf {α : Type} (p : Prog LogWorld α) (w : World) : List LogMsg := (p ⟨w, []⟩).2.log

end Eip.Spec
