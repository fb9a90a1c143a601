import Verif.Model.Encap
/-
The length field of an encapsulation packet over a history of calls (C74).
-/
namespace Eip.Spec

/-- The length field is the payload's length modulo 65536 (zero without payload). -/
def LengthMatches (p : EncapPacket) : Prop :=
  p.header.length.toNat = (match p.payload with | some d => d.getLength | none => 0) % 65536

/-- Operations on one packet that are meant to keep the length field right. -/
inductive PacketCall
  | setPayload (o : Option Obj)
  | updateLength
  | parse (input : Bytes) (consumed : Nat)
  | parseSized (length : Nat) (input : Bytes) (consumed : Nat)

/-- Did the call return normally on this packet? -/
def PacketCall.returns (p : EncapPacket) : PacketCall → Prop
  | .setPayload _ => True
  | .updateLength => True
  | .parse input c => (EncapPacket.deserialize (p, .buffer ⟨input, c⟩)).1 = .ok ()
  | .parseSized n input c => (EncapPacket.deserializeSized n (p, .buffer ⟨input, c⟩)).1 = .ok ()

/-- The packet after the call (also when it throws). -/
def PacketCall.run (p : EncapPacket) : PacketCall → EncapPacket
  | .setPayload o => p.setPayload o
  | .updateLength => p.updateLength
  | .parse input c => (EncapPacket.deserialize (p, .buffer ⟨input, c⟩)).2.1
  | .parseSized n input c => (EncapPacket.deserializeSized n (p, .buffer ⟨input, c⟩)).2.1

end Eip.Spec
