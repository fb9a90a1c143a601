import Verif.Lemmas.Held
import Verif.Lemmas.Ops
import Verif.Props.Robust
/-
C130: parsing keeps no more of a message than there is.
-/
namespace Eip
open Eip Eip.Spec

/-- C130. Parsing from a buffer, whatever the bytes and whatever the object held before: a frame, a raw buffer, a CPF item,
a CPF packet, a message router response, a send-RR-data response and the two connection replies keep at most as many more
bytes as they took from the reader, and no more than that if the parse returns. For an identity the same holds of a parse
that returns, and one that fails keeps at most 255 bytes more. Missing: streams, and a failed parse of an identity. -/
theorem c130_kept_partial :
    (Frugal (fun p : EncapPacket => kept p.payload) 0 EncapPacket.deserialize ∧
      ∀ n, Frugal (fun p : EncapPacket => kept p.payload) 0 (EncapPacket.deserializeSized n)) ∧
    (Frugal (fun b : SerializableBuffer => b.data.length) 0 SerializableBuffer.deserialize ∧
      ∀ n, Frugal (fun b : SerializableBuffer => b.data.length) 0 (SerializableBuffer.deserializeLen n)) ∧
    (Frugal (fun i : CPFItem => kept i.data) 0 CPFItem.deserialize ∧
      ∀ n, Frugal (fun i : CPFItem => kept i.data) 0 (CPFItem.deserializeSized n)) ∧
    Frugal keptItems 0 CPFPacket.deserialize ∧
    (∀ n, Frugal keptReply 0 (MessageRouterResponse.deserializeSized n)) ∧
    Frugal (fun d : RRDataResponse => keptReply d.mr) 0 RRDataResponse.cls.deserialize ∧
    Frugal (fun d : ForwardOpenSuccess => kept d.responseData) 0 ForwardOpenSuccess.deserialize ∧
    Frugal (fun d : ForwardCloseSuccess => kept d.responseData) 0 ForwardCloseSuccess.deserialize ∧
    Frugal (fun d : IdentityItemData => d.productName.length) 255 IdentityItemData.deserialize :=
  ⟨⟨EncapPacket.frugal, EncapPacket.frugalSized⟩, ⟨SerializableBuffer.frugal, SerializableBuffer.frugalSized⟩,
    ⟨CPFItem.frugal, CPFItem.frugalSized⟩, CPFPacket.frugal, MessageRouterResponse.frugal, RRDataResponse.frugal,
    ForwardOpenSuccess.frugal, ForwardCloseSuccess.frugal, IdentityItemData.frugal⟩

/-- A datagram that announces 65535 items, the first of 65535 bytes, and ends there: parsing fails, and keeps nothing. -/
example : (CPFPacket.deserialize (⟨[]⟩, .buffer ⟨[0xFF, 0xFF, 0xB1, 0, 0xFF, 0xFF], 0⟩)).1 ≠ .ok () ∧
    keptItems (CPFPacket.deserialize (⟨[]⟩, .buffer ⟨[0xFF, 0xFF, 0xB1, 0, 0xFF, 0xFF], 0⟩)).2.1 ≤ 6 := by
  decide +kernel

/-- A datagram with two items, of two bytes and of one: eleven bytes are kept of thirteen. -/
example : keptItems (CPFPacket.deserialize (⟨[]⟩,
    .buffer ⟨[2, 0, 0xB1, 0, 2, 0, 7, 8, 0xB1, 0, 1, 0, 9], 0⟩)).2.1 = 11 := by decide +kernel

/-- C130. So an I/O packet a session has received keeps at most the 4096 bytes of the receive buffer in all, and has at most
1024 items, whatever the number of items the datagram announces. -/
theorem c130_received (w w' : World) (p : CPFPacket) (h : Session.receiveIOPacket w = (.ok p, w')) :
    keptItems p ≤ (delivered w.env w.clock).length ∧ keptItems p ≤ 4096 ∧ p.items.length ≤ 1024 := by
  have hd : (delivered w.env w.clock).length ≤ 4096 := by
    rw [delivered, List.length_take]; omega
  have hk : keptItems p ≤ (delivered w.env w.clock).length := by
    obtain ⟨t, r, c', e, -, -, e4⟩ := CPFPacket.frugal ⟨[]⟩ (delivered w.env w.clock) 0
    have hl := congrArg List.length e
    rw [List.length_append] at hl
    rw [receiveIO_eq] at h
    split at h
    · cases h
    · revert h e4
      generalize CPFPacket.deserialize (⟨[]⟩, .buffer ⟨delivered w.env w.clock, 0⟩) = x
      rcases x with ⟨_ | _ | _, p1, r1⟩
      · intro e4 h
        cases h
        have h4 : keptItems p ≤ t.length := e4 rfl
        omega
      · intro _ h; cases h
      · intro _ h; cases h
  have hn : ∀ l : List CPFItem, 4 * l.length ≤ (l.map (fun i => 4 + kept i.data)).sum := by
    intro l
    induction l with
    | nil => exact Nat.le_refl _
    | cons i l ih => simp only [List.length_cons, List.map_cons, List.sum_cons]; omega
  have := hn p.items
  unfold keptItems at hk ⊢
  omega

/-- C130 is false of streams: a frame of which only the header has arrived - 24 bytes - keeps as many bytes of unknown memory
as the header announces, up to 65535, and the parse returns. -/
theorem c130_violated (h : EncapHeader) (some' : 0 < h.length.toNat) (d : EncapPacket) (junk : UInt8) :
    (Spec.header h).length = 24 ∧ ∃ p r,
    EncapPacket.deserialize (d, .stream ⟨Spec.header h, 0, true, junk⟩) = (.ok (), (p, r)) ∧
    kept p.payload = h.length.toNat := by
  have e := c70_violated_packet d h [] [] junk (by simpa using some')
  refine ⟨rfl, _, _, by simpa using e, ?_⟩
  simp [kept, SerializableBuffer.obj]

example : ∃ h : EncapHeader, h.length.toNat = 65535 := ⟨⟨0, 65535, 0, 0, (0, 0), 0⟩, rfl⟩

/-- C130 is false of an identity whose parse fails: 33 bytes that announce a name of 255 and end there leave 255 bytes in the
product name, because the string is resized before it is filled. -/
theorem c130_violated_identity : ∃ (d : IdentityItemData) (input : Bytes), input.length = 33 ∧ d.productName = [] ∧
    (IdentityItemData.deserialize (d, .buffer ⟨input, 0⟩)).1 ≠ .ok () ∧
    (IdentityItemData.deserialize (d, .buffer ⟨input, 0⟩)).2.1.productName.length = 255 := by
  refine ⟨⟨0, ⟨0, 0, 0, (0, 0)⟩, 0, 0, 0, (0, 0), 0, 0, [], 0⟩, List.replicate 32 0 ++ [255], by decide +kernel⟩

end Eip
