import Verif.Spec.Streams
import Verif.Model.Connection
import Verif.Model.Items
/-
The wire format, stated independently of the serialization code: plain concatenations of little-endian fields.
Only the data types (fields) of the model are used here, none of its functions.
-/
namespace Eip.Spec
open Eip

/-- Little-endian encoding of `n` in `k` bytes (the low `8 * k` bits of `n`). -/
def le (k n : Nat) : Bytes := (List.range k).map (fun i => UInt8.ofNat (n / 256 ^ i % 256))

/-- The number whose little-endian encoding is `bs`. -/
def value (bs : Bytes) : Nat := ((List.range bs.length).map (fun i => (bs.getD i 0).toNat * 256 ^ i)).sum

/-- The 24 bytes of an encapsulation header. -/
def header (h : EncapHeader) : Bytes :=
  le 2 h.command.toNat ++ le 2 h.length.toNat ++ le 4 h.sessionHandle.toNat ++ le 4 h.status.toNat ++
  le 4 h.context.1.toNat ++ le 4 h.context.2.toNat ++ le 4 h.options.toNat

/-- An encapsulation request: zero status, context and options, the payload and its length. -/
def request (command : Nat) (handle : UInt32) (payload : Bytes) : Bytes :=
  le 2 command ++ le 2 payload.length ++ le 4 handle.toNat ++ le 4 0 ++ le 4 0 ++ le 4 0 ++ le 4 0 ++ payload

/-- A common packet format item. -/
def item (type : UInt16) (payload : Bytes) : Bytes := le 2 type.toNat ++ le 2 payload.length ++ payload

/-- A common packet format packet. -/
def cpf (items : List (UInt16 × Bytes)) : Bytes :=
  le 2 items.length ++ (items.map (fun i => item i.1 i.2)).flatten

/-- Register session data. -/
def register (version options : UInt16) : Bytes := le 2 version.toNat ++ le 2 options.toNat

/-- Sequenced address item data. -/
def seqAddress (connectionId sequenceNum : UInt32) : Bytes := le 4 connectionId.toNat ++ le 4 sequenceNum.toNat

/-- A socket address as 16 bytes. -/
def sockaddr (s : SockAddrIn) : Bytes :=
  le 2 s.family.toNat ++ le 2 s.port.toNat ++ le 4 s.addr.toNat ++ le 4 s.zero.1.toNat ++ le 4 s.zero.2.toNat

/-- Identity item data with a product name of `name.length` characters. -/
def identity (d : IdentityItemData) (name : Bytes) : Bytes :=
  le 2 d.encapProtocolVersion.toNat ++ sockaddr d.sockaddr ++ le 2 d.vendorId.toNat ++ le 2 d.deviceType.toNat ++
  le 2 d.productCode.toNat ++ [d.revision.1, d.revision.2] ++ le 2 d.status.toNat ++ le 4 d.serialNumber.toNat ++
  le 1 name.length ++ name ++ [d.state]

/-- A logical segment of a path. -/
inductive Segment
  | class' (id : UInt8)
  | instance' (id : UInt8)
  | attribute (id : UInt8)
  | connectionPoint (id : UInt8)
  deriving DecidableEq, Repr

/-- The two bytes of a logical segment with an 8-bit id. -/
def Segment.bytes : Segment → Bytes
  | .class' id => [0x20, id]
  | .instance' id => [0x24, id]
  | .attribute id => [0x30, id]
  | .connectionPoint id => [0x2C, id]

/-- A path: number of 16-bit words, optional pad byte, segments. -/
def path (pad : Bool) (segs : List Segment) : Bytes :=
  le 1 segs.length ++ (if pad then [0] else []) ++ (segs.map Segment.bytes).flatten

/-- A message router request. -/
def mrRequest (service : UInt8) (pathBytes data : Bytes) : Bytes := [service] ++ pathBytes ++ data

/-- A message router response with `2 * k` bytes of additional status. -/
def mrReply (service reserved status : UInt8) (k : UInt8) (additional data : Bytes) : Bytes :=
  [service, reserved, status, k] ++ additional ++ data

/-- RR data around a message router message. -/
def rrData (handle : UInt32) (timeout : UInt16) (body : Bytes) : Bytes :=
  le 4 handle.toNat ++ le 2 timeout.toNat ++ cpf [(0x0000, []), (0x00B2, body)]

/-- Network connection parameters of a large forward open: 16 bits of size of which 15 are used, bit 25 variable
size, bits 26-27 priority, bits 29-30 type, bit 31 redundant owner. -/
def connParams (size : Nat) (isVariable : Bool) (priority type : Nat) (shared : Bool) : Nat :=
  size % 2 ^ 15 + (if isVariable then 2 ^ 25 else 0) + priority % 4 * 2 ^ 26 + type % 4 * 2 ^ 29 +
    (if shared then 2 ^ 31 else 0)

/-- A (large) forward open request. -/
def forwardOpen (tickSize ticks : UInt8) (oToT tToO : UInt32) (sn vendor : UInt16) (originator : UInt32)
    (multiplier : UInt8) (oRpi oParams tRpi tParams : UInt32) (connType : UInt8) (pathBytes : Bytes) : Bytes :=
  [tickSize, ticks] ++ le 4 oToT.toNat ++ le 4 tToO.toNat ++ le 2 sn.toNat ++ le 2 vendor.toNat ++
  le 4 originator.toNat ++ [multiplier, 0, 0, 0] ++ le 4 oRpi.toNat ++ le 4 oParams.toNat ++ le 4 tRpi.toNat ++
  le 4 tParams.toNat ++ [connType] ++ pathBytes

/-- A forward close request. -/
def forwardClose (tickSize ticks : UInt8) (sn vendor : UInt16) (originator : UInt32) (pathBytes : Bytes) : Bytes :=
  [tickSize, ticks] ++ le 2 sn.toNat ++ le 2 vendor.toNat ++ le 4 originator.toNat ++ pathBytes

/-- A successful forward open reply with `2 * k` bytes of application data. -/
def forwardOpenReply (oToT tToO : UInt32) (sn vendor : UInt16) (originator oApi tApi : UInt32)
    (k reserved : UInt8) (app : Bytes) : Bytes :=
  le 4 oToT.toNat ++ le 4 tToO.toNat ++ le 2 sn.toNat ++ le 2 vendor.toNat ++ le 4 originator.toNat ++
  le 4 oApi.toNat ++ le 4 tApi.toNat ++ [k, reserved] ++ app

/-- A successful forward close reply with `2 * k` bytes of application data. -/
def forwardCloseReply (sn vendor : UInt16) (originator : UInt32) (k reserved : UInt8) (app : Bytes) : Bytes :=
  le 2 sn.toNat ++ le 2 vendor.toNat ++ le 4 originator.toNat ++ [k, reserved] ++ app

/-- An object whose serialized form is exactly `bs` and whose reported length is true. -/
structure Encodes (o : Obj) (bs : Bytes) : Prop where
  writes : Writes o.serialize bs
  length : o.getLength = bs.length

/-- The same for a possibly null pointer; null stands for no bytes. -/
def EncodesOpt (o : Option Obj) (bs : Bytes) : Prop :=
  match o with
  | some d => Encodes d bs
  | none => bs = []

/-- A packet whose item count and item lengths fit their 16-bit fields. -/
def CpfOk (l : List (UInt16 × Bytes)) : Prop := l.length < 65536 ∧ ∀ i ∈ l, i.2.length < 65536

/-- `payload` starts with RR data (any interface handle, timeout, additional items) whose first item is an empty
null address and whose second item is an unconnected message `body`. -/
def RRBody (payload body : Bytes) : Prop :=
  ∃ (handle : UInt32) (timeout : UInt16) (more : List (UInt16 × Bytes)) (tail : Bytes),
    CpfOk ((0x0000, []) :: (0x00B2, body) :: more) ∧
    payload = le 4 handle.toNat ++ le 2 timeout.toNat ++ cpf ((0x0000, []) :: (0x00B2, body) :: more) ++ tail

/-- `payload` is RR data with a message router response: service code, general status, additional status (a
whole number of 16-bit words) and response data. -/
def RRReply (payload : Bytes) (service status : UInt8) (additional data : Bytes) : Prop :=
  ∃ reserved k : UInt8, additional.length = 2 * k.toNat ∧
    RRBody payload (mrReply service reserved status k additional data)

/-- `bytes` starts with an encapsulation packet with the given command, session handle and payload. -/
def Packet (bytes : Bytes) (command : UInt16) (handle : UInt32) (payload : Bytes) : Prop :=
  ∃ (h : EncapHeader) (tail : Bytes), h.command = command ∧ h.sessionHandle = handle ∧
    h.length.toNat = payload.length ∧ bytes = header h ++ payload ++ tail

/-- What a parser stores for a block of raw bytes: a null pointer for no bytes, a raw buffer otherwise. -/
def rawData (bs : Bytes) : Option Obj := if bs = [] then none else some (SerializableBuffer.obj ⟨bs⟩)

end Eip.Spec
