import Verif.Spec.Wire
import Verif.Model.Session
/-
What a session may accept, in terms of bytes. Only data types of the model are used, none of its functions.
-/
namespace Eip.Spec
open Eip

/-- The bytes delivered by the receive that is socket call number `n`: at most the size of the receive buffer. -/
def delivered (env : Nat → Answer) (n : Nat) : Bytes := (env n).data.take 4096

/-- Is a reply with this handle acceptable to a session with the given id (0: not registered)? -/
def Acceptable (sessionId : UInt32) (handle : UInt32) : Prop :=
  (sessionId = 0 ∧ handle ≠ 0) ∨ (sessionId ≠ 0 ∧ handle = sessionId)

/-- `bytes` starts with a send-RR-data frame acceptable to the session, with this payload. -/
def RRFrame (sessionId : UInt32) (bytes payload : Bytes) : Prop :=
  ∃ handle, Packet bytes 0x006F handle payload ∧ Acceptable sessionId handle

/-- An acceptable reply carrying a message router response with the given service code, general status and data. -/
def Response (sessionId : UInt32) (bytes : Bytes) (service status : UInt8) (data : Bytes) : Prop :=
  ∃ payload additional, RRFrame sessionId bytes payload ∧ RRReply payload service status additional data

/-- An acceptable reply without payload, or whose unconnected message item is empty. -/
def HollowReply (sessionId : UInt32) (bytes : Bytes) : Prop :=
  ∃ payload, RRFrame sessionId bytes payload ∧ (payload = [] ∨ RRBody payload [])

/-- Both socket calls starting at number `n` succeed. -/
def Works (env : Nat → Answer) (n : Nat) : Prop := (env n).fails = false ∧ (env (n + 1)).fails = false

/-- The registration request. -/
def registration : Bytes := request 0x65 0 (register 1 0)

/-- A reply that completes a registration: a register-session frame acceptable to the session, with a payload that
is non-empty and, if it has room for a protocol version, has version 1. -/
def Registers (sessionId : UInt32) (bytes : Bytes) (handle : UInt32) : Prop :=
  ∃ payload, Packet bytes 0x0065 handle payload ∧ Acceptable sessionId handle ∧ payload ≠ [] ∧
    (payload.length < 4 ∨ payload.take 2 = le 2 1)

/-- A reply that passes the checks of the frame but has no payload. -/
def HollowRegistration (sessionId : UInt32) (bytes : Bytes) : Prop :=
  ∃ handle, Packet bytes 0x0065 handle [] ∧ Acceptable sessionId handle

/-- A socket call without its outcome. -/
inductive Call
  | «open» (s : Sock) (hostname port : String)
  | close (s : Sock)
  | send (s : Sock) (bytes : Bytes)
  | receive (s : Sock)
  deriving DecidableEq, Repr

/-- The call an event records. -/
def call : Ev → Call
  | .opened s h p _ => .open s h p
  | .closed s _ => .close s
  | .sent s b _ => .send s b
  | .received s _ _ => .receive s

/-- Did the call succeed? -/
def succeeded : Ev → Bool
  | .opened _ _ _ ok => ok
  | .closed _ ok => ok
  | .sent _ _ ok => ok
  | .received _ _ ok => ok

/-- Is the socket open after these events (given whether it was before)? -/
def isOpen (s : Sock) : Bool → List Ev → Bool
  | b, [] => b
  | b, .opened s' _ _ ok :: es => isOpen s (if s' = s ∧ ok = true then true else b) es
  | b, .closed s' ok :: es => isOpen s (if s' = s ∧ ok = true then false else b) es
  | b, _ :: es => isOpen s b es

/-- A request to the message router: send-RR-data frame, RR data, request path, data. -/
def command (handle : UInt32) (service : UInt8) (segs : List Segment) (data : Bytes) : Bytes :=
  request 0x6F handle (rrData 0 0 (mrRequest service (path false segs) data))

/-- `data` starts with a forward open reply with these contents. -/
def OpenReply (data : Bytes) (oToT tToO : UInt32) (sn vendor : UInt16) (originator oApi tApi : UInt32) : Prop :=
  ∃ (k reserved : UInt8) (app tail : Bytes), app.length = 2 * k.toNat ∧
    data = forwardOpenReply oToT tToO sn vendor originator oApi tApi k reserved app ++ tail

/-- `data` starts with a forward close reply with these contents. -/
def CloseReply (data : Bytes) (sn vendor : UInt16) (originator : UInt32) : Prop :=
  ∃ (k reserved : UInt8) (app tail : Bytes), app.length = 2 * k.toNat ∧
    data = forwardCloseReply sn vendor originator k reserved app ++ tail

end Eip.Spec
