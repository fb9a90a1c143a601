import Verif.Lemmas.Width
import Verif.Props.IO
import Verif.Lemmas.Scanner
/-
C135: the library on hosts with 32-bit `size_t`.
-/
namespace Eip
open Spec

/-- C135. With 64 bits the functions of Model/Width are those of the rest of the model. -/
theorem c135_model (length : Nat) (n : Nat) (p : CPFPacket) (small : p.getLength < 18446744073709551616) :
    MessageRouterResponse.deserializeSizedW 64 length = MessageRouterResponse.deserializeSized length ∧
    MessageRouterResponse.clsW 64 = MessageRouterResponse.cls ∧
    (∀ (τ : Type) (c : Class τ), SequencedDataItem.deserializeLenW 64 c length = SequencedDataItem.deserializeLen c length) ∧
    Session.lastNumberW 64 n = sizeToInt (sizeSub n 1) ∧ Session.sendIOPacketW 64 p = Session.sendIOPacket p := by
  have h2 : ∀ a b, sizeSubW 64 a b = sizeSub a b := fun a b => by simp only [sizeSubW, sizeSub]
  refine ⟨response_64 length, ?_, fun τ c => ?_, ?_, ?_⟩
  · unfold MessageRouterResponse.clsW MessageRouterResponse.cls
    simp only [response_64]
  · unfold SequencedDataItem.deserializeLenW SequencedDataItem.deserializeLen
    simp only [h2]
  · unfold Session.lastNumberW
    rw [h2]
  · unfold Session.sendIOPacketW sockSendW Session.sendIOPacket sockSend
    rw [getLengthW_eq 64 18446744073709551616 (by simp only [Nat.reducePow]) (by omega) p, Nat.mod_eq_of_lt small]
    rfl

/-- C135. A message router response is parsed alike on 32-bit and 64-bit hosts, from buffers and from streams, whatever
is in them and whatever length is announced, although the lengths are computed in `size_t` and wrap around. -/
theorem c135_response_partial (length : Nat) (d : MessageRouterResponse) (r : Reader) (small : r.Small) :
    MessageRouterResponse.deserializeSizedW 32 length (d, r) = MessageRouterResponse.deserializeSizedW 64 length (d, r) :=
  response_width length (d, r) small

/-- C135. So a session takes the same response out of every reply it receives: this is how it reads the item with the
message (rr_data_response.h:130-133). -/
theorem c135_reply_partial (t : UInt16) (bs : Bytes) (small : bs.length < 4294967296) (d : MessageRouterResponse) :
    (⟨t, rawData bs⟩ : CPFItem).getDataAs (MessageRouterResponse.clsW 32) d =
      (⟨t, rawData bs⟩ : CPFItem).getDataAs MessageRouterResponse.cls d := by
  cases bs with
  | nil => exact (getDataAs_null _ t d).trans (getDataAs_null _ t d).symm
  | cons b bs =>
    have hne : b :: bs ≠ [] := List.cons_ne_nil _ _
    rw [getDataAs_raw (MessageRouterResponse.clsW 32) rfl t hne, getDataAs_raw MessageRouterResponse.cls rfl t hne]
    have e1 := response_width (b :: bs).length (d, .buffer ⟨b :: bs, 0⟩) (by
      simp only [Reader.Small, Nat.zero_add]; exact small)
    rw [response_64] at e1
    have e2 : ∀ s, (MessageRouterResponse.clsW 32).runLen (b :: bs).length s =
        MessageRouterResponse.deserializeSizedW 32 (b :: bs).length s := fun s => rfl
    have e3 : ∀ s, MessageRouterResponse.cls.runLen (b :: bs).length s =
        MessageRouterResponse.deserializeSized (b :: bs).length s := fun s => rfl
    simp only [deserializeFrom, BufferReader.new, e2, e3]
    rw [e1]

/-- A response of 8 bytes that is said to have 3: the length of its data wraps around, and no data are read, on both. -/
example : (Reader.buffer ⟨[0x8E, 0, 0, 0, 1, 2, 3, 4], 0⟩).Small ∧
    ((MessageRouterResponse.deserializeSizedW 32 3 (.new, .buffer ⟨[0x8E, 0, 0, 0, 1, 2, 3, 4], 0⟩)).2.2 =
      .buffer ⟨[1, 2, 3, 4], 4⟩) ∧ sizeSubW 32 3 4 ≠ sizeSubW 64 3 4 := by
  refine ⟨?_, ?_, ?_⟩
  · simp [Reader.Small]
  · decide +kernel
  · decide +kernel

/-- C135. A sequenced data item of any class is parsed alike, if it is said to have at least its two bytes of number. -/
theorem c135_sequenced_partial {τ : Type} (c : Class τ) (length : Nat) (h : 2 ≤ length) (small : length < 4294967296) :
    SequencedDataItem.deserializeLenW 32 c length = SequencedDataItem.deserializeLenW 64 c length := by
  have e : sizeSubW 32 length 2 = sizeSubW 64 length 2 := by
    rw [sizeSubW_32, sizeSubW_64]; omega
  unfold SequencedDataItem.deserializeLenW
  rw [e]

/-- C135. `createConnection` returns the same number. -/
theorem c135_number (n : Nat) (h : 0 < n) : Session.lastNumberW 32 n = Session.lastNumberW 64 n :=
  sizeToInt_sub (by omega)

/-- C135. An I/O packet of less than 4 GiB is sent alike. -/
theorem c135_send_partial (p : CPFPacket) (small : p.getLength < 4294967296) :
    Session.sendIOPacketW 32 p = Session.sendIOPacketW 64 p := by
  unfold Session.sendIOPacketW sockSendW
  rw [getLengthW_eq 32 4294967296 (by simp only [Nat.reducePow]) (by omega) p, Nat.mod_eq_of_lt small,
    getLengthW_eq 64 18446744073709551616 (by simp only [Nat.reducePow]) (by omega) p, Nat.mod_eq_of_lt (by omega)]

theorem wide_packet (n : Nat) (hn : n = 65535) (t : UInt16) (bs : Bytes) (h : bs.length = 65535) (w : World)
    (works : (w.env w.clock).fails = false) (p : CPFPacket)
    (hp : p = ⟨List.replicate n ⟨t, some (SerializableBuffer.obj ⟨bs⟩)⟩⟩) :
    (∃ w', Session.sendIOPacketW 64 p w = (.ok (), w') ∧
      w'.trace = w.trace ++ [.sent .io (cpf (List.replicate n (t, bs))) true]) ∧
    p.getLengthW 32 = 131071 ∧ ∃ what, Session.sendIOPacketW 32 p w = (.throw (lengthError what), w) := by
  have items : ItemsAre p.items (List.replicate n (t, bs)) := by rw [hp]; exact itemsAre_replicate n t bs
  have ok : CpfOk (List.replicate n (t, bs)) := by
    refine ⟨by rw [List.length_replicate]; omega, fun i hi => ?_⟩
    obtain ⟨_, rfl⟩ := List.mem_replicate.mp hi
    dsimp only; omega
  have enc := c05_true_length_partial p _ items ok.2
  have total : (cpf (List.replicate n (t, bs))).length = 4295098367 := by
    rw [cpf_replicate, hn, h]
  have len : p.getLength = 4295098367 := enc.length.trans total
  have len32 : p.getLengthW 32 = 131071 := by
    rw [getLengthW_eq 32 4294967296 (by simp only [Nat.reducePow]) (by omega) p, len]
  refine ⟨?_, len32, sendW_short enc.writes len32 (by rw [total]; omega) w⟩
  obtain ⟨w', e, tr, _⟩ := c60_sends w p _ items ok
  rw [works] at e tr
  refine ⟨w', ?_, tr⟩
  rw [(c135_model 0 0 p (by omega)).2.2.2.2]
  exact e

/-- C135 is violated: a packet of 65535 items that share one payload of 65535 bytes is well formed and takes little
memory. On a 64-bit host it is handed to the socket. On a 32-bit host its length wraps around, the vector it is
serialized into has 131071 bytes, and `length_error` is thrown. -/
theorem c135_violated (t : UInt16) (bs : Bytes) (h : bs.length = 65535) (w : World) (works : (w.env w.clock).fails = false)
    (p : CPFPacket) (hp : p = ⟨List.replicate 65535 ⟨t, some (SerializableBuffer.obj ⟨bs⟩)⟩⟩) :
    (∃ w', Session.sendIOPacketW 64 p w = (.ok (), w') ∧
      w'.trace = w.trace ++ [.sent .io (cpf (List.replicate 65535 (t, bs))) true]) ∧
    p.getLengthW 32 = 131071 ∧ ∃ what, Session.sendIOPacketW 32 p w = (.throw (lengthError what), w) :=
  wide_packet 65535 (Eq.refl 65535) t bs h w works p hp

end Eip
