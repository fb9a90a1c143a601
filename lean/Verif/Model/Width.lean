import Verif.Model.Session
/-
Hosts on which `size_t` has `bits` bits. The rest of the model is for 64 bits; this file restates the functions that
compute with `size_t` in a way that may wrap around, or hand a wrapped value on, for other widths.
-/
namespace Eip

/-- A `size_t` of `bits` bits: the mathematical value `n` after the reduction C++ prescribes (every function below). -/
def sizeW (bits n : Nat) : Nat := n % 2 ^ bits

/-- `a - b` on `size_t` (src/message_router_response.cpp:61, sequenced_data_item.h:82, 85, src/session.cpp:317). -/
def sizeSubW (bits a b : Nat) : Nat := (a + 2 ^ bits - b) % 2 ^ bits

/-- `StreamReader::getByteCount` (serialization/stream_reader.h:83-86): `(size_t)-1` on a failed stream. -/
def StreamReader.getByteCountW (bits : Nat) (r : StreamReader) : Nat :=
  if r.good then r.pos else 2 ^ bits - 1

/-- `Reader::getByteCount` (serialization/reader.h:75), virtual dispatch. -/
def Reader.getByteCountW (bits : Nat) : Reader → Nat
  | .buffer r => r.getByteCount
  | .stream r => r.getByteCountW bits

namespace MessageRouterResponse

/-- `deserialize(Reader&, size_t)` (src/message_router_response.cpp:52-63). -/
def deserializeSizedW (bits length : Nat) : Prog (MessageRouterResponse × Reader) Unit := do
  readMember .u8 (·.service) (fun v r => { r with service := v })
  readMember .u8 (·.generalStatus) (fun v r => { r with generalStatus := v })
  readMember .u8 (·.generalStatus) (fun v r => { r with generalStatus := v })
  let additionalStatusLength ← readLocal8
  let a ← readData (sizeToInt (sizeW bits (2 * additionalStatusLength.toNat)))
  modifyObj (fun r => { r with additionalStatus := a })
  let count ← (fun s => (.ok (s.2.getByteCountW bits), s))
  let d ← readData (sizeToInt (sizeSubW bits length count))
  modifyObj (fun r => { r with responseData := d })

/-- `MessageRouterResponse` as a destination (message_router_response.h:98-106). -/
def clsW (bits : Nat) : Class MessageRouterResponse where
  getLength := getLength
  deserialize := Prog.raise (logicError "Must have size to deserialize")
  deserializeLen := fun _ part _ _ length => part (deserializeSizedW bits length)
  assignBuffer := none

end MessageRouterResponse

/-- `deserialize(Reader&, size_t)` of a sequenced data item (sequenced_data_item.h:80-88). -/
def SequencedDataItem.deserializeLenW {τ : Type} (bits : Nat) (c : Class τ) (length : Nat) :
    Prog (SequencedDataItem τ × Reader) Unit := do
  let d ← getObj
  if d.alreadyDeserializing then
    c.deserializeLen (SequencedDataItem τ) onBase (deserialize c) (getLength c) (sizeSubW bits length 2)
  else do
    readMember .u16 (·.sequenceNum) (fun v d => { d with sequenceNum := v })
    modifyObj (fun d => { d with alreadyDeserializing := true })
    c.deserializeLen (SequencedDataItem τ) onBase (deserialize c) (getLength c) (sizeSubW bits length 2)
    modifyObj (fun d => { d with alreadyDeserializing := false })

/-- `CPFPacket::getLength` (src/cpf_packet.cpp:35-44): a sum of `size_t`. Simplification: the lengths of the items'
data are taken as they are. -/
def CPFPacket.getLengthW (bits : Nat) (p : CPFPacket) : Nat :=
  p.items.foldl (fun l i => sizeW bits (l + i.getLength)) 2

/-- `Socket::send(const Serializable&)` (socket/socket.h:88-94): the vector has as many bytes as `getLength` says. -/
def sockSendW (bits : Nat) (s : Sock) (pkt : CPFPacket) : Prog World Nat := do
  let buf ← serializeToVector (pkt.getLengthW bits) pkt.serialize
  sockSendBuffer s buf

/-- `sendIOPacket` (src/session.cpp:353-357). -/
def Session.sendIOPacketW (bits : Nat) (pkt : CPFPacket) : Prog World Unit := do
  let _ ← sockSendW bits .io pkt

/-- The number `createConnection` returns when there are now `n` connections (src/session.cpp:317). -/
def Session.lastNumberW (bits n : Nat) : Int := sizeToInt (sizeSubW bits n 1)

end Eip
