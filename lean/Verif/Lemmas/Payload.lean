import Verif.Lemmas.Reply
import Verif.Model.Session
/-
Parsing of received packets and their payloads, as used by `Session`.
-/
namespace Eip
open Spec

/-! ### RR data responses as payloads -/

theorem RRDataResponse.parse_eq (handle : UInt32) (timeout : UInt16) {l : List (UInt16 × Bytes)} (hl : CpfOk l)
    (tail : Bytes) (n : Nat) (d : RRDataResponse) :
    deserializeFrom RRDataResponse.cls (rrBytes handle timeout l ++ tail) n d =
      match rrCheck l with
      | .error s => (.throw (logicError s), { d with base := ⟨handle, timeout⟩ })
      | .ok p => RRDataResponse.setData ⟨0x00B2, rawData p⟩ { d with base := ⟨handle, timeout⟩ } := by
  have h := RRData.deserialize_eq (fun x : RRDataResponse => x.base) (fun b r => { r with base := b })
    RRDataResponse.setData (fun _ _ => rfl) (fun _ _ _ => rfl) d handle timeout hl tail 0
  have e : deserializeFrom RRDataResponse.cls (rrBytes handle timeout l ++ tail) n d =
      match RRData.deserialize (fun x : RRDataResponse => x.base) (fun b r => { r with base := b })
        RRDataResponse.setData (d, .buffer ⟨rrBytes handle timeout l ++ tail, 0⟩) with
      | (r, (d', _)) => (r, d') := rfl
  rw [e, h]
  cases rrCheck l <;> rfl

theorem RRDataResponse.parse_fields (s r st k : UInt8) {a data : Bytes} (ha : a.length = 2 * k.toNat)
    (handle : UInt32) (timeout : UInt16) {more : List (UInt16 × Bytes)}
    (hl : CpfOk ((0x0000, []) :: (0x00B2, mrReply s r st k a data) :: more)) (tail : Bytes) (n : Nat)
    (d : RRDataResponse) :
    deserializeFrom RRDataResponse.cls (le 4 handle.toNat ++ le 2 timeout.toNat ++
        cpf ((0x0000, []) :: (0x00B2, mrReply s r st k a data) :: more) ++ tail) n d =
      (.ok (), ⟨⟨handle, timeout⟩, ⟨s, st, rawData a, rawData data⟩⟩) := by
  have e := RRDataResponse.parse_eq handle timeout hl tail n d
  have hb : (mrReply s r st k a data).length < 65536 :=
    hl.2 (0x00B2, _) (List.mem_cons_of_mem _ List.mem_cons_self)
  rw [rrCheck_ok.mpr ⟨more, rfl⟩] at e
  simp only at e
  rw [RRDataResponse.setData_ok _ _ s r st k ha hb] at e
  exact e

theorem RRDataResponse.parse_reply {payload : Bytes} {s st : UInt8} {a data : Bytes}
    (h : RRReply payload s st a data) (n : Nat) (d : RRDataResponse) :
    ∃ base, deserializeFrom RRDataResponse.cls payload n d =
      (.ok (), ⟨base, ⟨s, st, rawData a, rawData data⟩⟩) := by
  obtain ⟨r, k, ha, handle, timeout, more, tail, hl, rfl⟩ := h
  exact ⟨_, RRDataResponse.parse_fields s r st k ha handle timeout hl tail n d⟩

theorem RRDataResponse.parse_empty {payload : Bytes} (h : RRBody payload []) (n : Nat) (d : RRDataResponse) :
    ∃ d', deserializeFrom RRDataResponse.cls payload n d = (.ub .nullDeref, d') := by
  obtain ⟨handle, timeout, more, tail, hl, rfl⟩ := h
  have e := RRDataResponse.parse_eq handle timeout hl tail n d
  rw [rrCheck_ok.mpr ⟨more, rfl⟩] at e
  simp only at e
  rw [RRDataResponse.setData_empty] at e
  exact ⟨_, e⟩

/-- Every payload falls into one of three classes. -/
theorem RRDataResponse.parse_cases (payload : Bytes) (n : Nat) (d : RRDataResponse) :
    (∃ s st a data, RRReply payload s st a data) ∨ RRBody payload [] ∨
    (∃ e d', deserializeFrom RRDataResponse.cls payload n d = (.throw e, d') ∧
      (e.kind = .lengthError ∨ e.kind = .logicError)) := by
  rcases covers_rr payload with ⟨cs, tail, ⟨handle, timeout, l, hl, rfl⟩, e⟩ |
    ⟨cs, m, ⟨handle, timeout, l, hl, rfl⟩, hm, e⟩
  · have ep := RRDataResponse.parse_eq handle timeout hl tail n d
    rw [← e] at ep
    cases hc : rrCheck l with
    | error s =>
      rw [hc] at ep
      exact Or.inr (Or.inr ⟨_, _, ep, Or.inr rfl⟩)
    | ok body =>
      obtain ⟨more, rfl⟩ := rrCheck_ok.mp hc
      have hb : RRBody payload body := ⟨handle, timeout, more, tail, hl, e⟩
      by_cases hne : body = []
      · subst hne
        exact Or.inr (Or.inl hb)
      · by_cases hr : ∃ (s r st k : UInt8) (a data : Bytes), a.length = 2 * k.toNat ∧ body = mrReply s r st k a data
        · obtain ⟨s, r, st, k, a, data, ha, rfl⟩ := hr
          exact Or.inl ⟨s, st, a, data, r, k, ha, hb⟩
        · rw [hc] at ep
          obtain ⟨what, d', e'⟩ := RRDataResponse.setData_short { d with base := ⟨handle, timeout⟩ } 0x00B2 body hne (by
            intro s r st k a data ha hb
            exact hr ⟨s, r, st, k, a, data, ha, hb⟩)
          simp only [e'] at ep
          exact Or.inr (Or.inr ⟨_, _, ep, Or.inl rfl⟩)
  · right; right
    obtain ⟨what, d', r', h⟩ := RRData.deserialize_short (fun x : RRDataResponse => x.base)
      (fun b r => { r with base := b }) RRDataResponse.setData (fun _ _ => rfl) (fun _ _ _ => rfl) d handle timeout hl
      payload m hm e 0
    have ed : deserializeFrom RRDataResponse.cls payload n d =
      match RRData.deserialize (fun x : RRDataResponse => x.base) (fun b r => { r with base := b })
        RRDataResponse.setData (d, .buffer ⟨payload, 0⟩) with
      | (r, (d', _)) => (r, d') := rfl
    rw [h] at ed
    exact ⟨_, _, ed, Or.inl rfl⟩

/-! ### Packets -/

theorem parsePacket_ok {σ : Type} (w : σ) (h : EncapHeader) {payload : Bytes} (tail : Bytes)
    (hl : payload.length = h.length.toNat) :
    Session.parsePacket (Spec.header h ++ payload ++ tail) w = (.ok ⟨h, rawData payload⟩, w) := by
  have e := (EncapPacket.parses EncapPacket.new h hl 0).buffer tail
  simp only [Session.parsePacket, BufferReader.new, e]

theorem parsePacket_cases {σ : Type} (bytes : Bytes) (w : σ) :
    (∃ (h : EncapHeader) (payload tail : Bytes), payload.length = h.length.toNat ∧
      bytes = Spec.header h ++ payload ++ tail) ∨
    (∃ what, Session.parsePacket bytes w = (.throw (lengthError what), w)) := by
  rcases covers_encap bytes with ⟨cs, tail, ⟨h, p, hl, rfl⟩, e⟩ | ⟨cs, m, ⟨h, p, hl, rfl⟩, hm, e⟩
  · exact Or.inl ⟨h, p, tail, hl, e⟩
  · obtain ⟨what, d1, r1, e'⟩ := (EncapPacket.parses EncapPacket.new h hl 0).short bytes m e hm
    right
    exact ⟨what, by simp only [Session.parsePacket, BufferReader.new, e']⟩

theorem getPayloadAs_raw {δ : Type} (c : Class δ) (hc : c.assignBuffer = none) (h : EncapHeader) {payload : Bytes}
    (hne : payload ≠ []) (d : δ) :
    (EncapPacket.mk h (rawData payload)).getPayloadAs c d = deserializeFrom c payload payload.length d := by
  rw [rawData_of_ne hne]
  simp only [EncapPacket.getPayloadAs, copySerializable, SerializableBuffer.obj, SerializableBuffer.getLength, hc]

theorem getPayloadAs_null {δ : Type} (c : Class δ) (h : EncapHeader) (d : δ) :
    (EncapPacket.mk h (rawData [])).getPayloadAs c d = (.ub .nullDeref, d) := rfl

theorem getResponseDataAs_raw {δ : Type} (c : Class δ) (hc : c.assignBuffer = none) (base : RRData) (s st : UInt8)
    (a : Option Obj) {data : Bytes} (hne : data ≠ []) (d : δ) :
    (RRDataResponse.mk base ⟨s, st, a, rawData data⟩).getResponseDataAs c d =
      deserializeFrom c data data.length d := by
  rw [rawData_of_ne hne]
  simp only [RRDataResponse.getResponseDataAs, copySerializable, SerializableBuffer.obj,
    SerializableBuffer.getLength, hc]

theorem getResponseDataAs_buffer {δ : Type} (c : Class δ) {f : Bytes → δ → δ} (hc : c.assignBuffer = some f)
    (base : RRData) (s st : UInt8) (a : Option Obj) {data : Bytes} (hne : data ≠ []) (d : δ) :
    (RRDataResponse.mk base ⟨s, st, a, rawData data⟩).getResponseDataAs c d = (.ok (), f data d) := by
  rw [rawData_of_ne hne]
  simp only [RRDataResponse.getResponseDataAs, copySerializable, SerializableBuffer.obj, hc, Prog.modify]

theorem getResponseDataAs_null {δ : Type} (c : Class δ) (base : RRData) (s st : UInt8) (a : Option Obj) (d : δ) :
    (RRDataResponse.mk base ⟨s, st, a, rawData []⟩).getResponseDataAs c d = (.ub .nullDeref, d) := rfl

end Eip
