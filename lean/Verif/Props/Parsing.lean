import Verif.Spec.Parsed
import Verif.Lemmas.Uniform
import Verif.Lemmas.Payload
/-
C16 - C24, C65, C68 - C70, C74, C80: parsing.
-/
namespace Eip
open Spec

/-! ### C16 -/

/-- C16 in full, for one class: whatever failed before, a good input is then parsed correctly. -/
def ReusableAfterFailure {τ : Type} (cls : Class τ) : Prop :=
  ∀ (d d' : SequencedDataItem τ) (bad : Bytes) (c c' : Nat) (e : Exn) (r' : Reader),
    d.alreadyDeserializing = false →
    SequencedDataItem.deserialize cls (d, .buffer ⟨bad, c⟩) = (.throw e, (d', r')) →
    ∀ (seq : UInt16) (bs : Bytes) (x : τ), ParsesAt (c' + 2) cls.deserialize d'.base bs () x →
      ∃ r, SequencedDataItem.deserialize cls (d', .buffer ⟨le 2 seq.toNat ++ bs, c'⟩) = (.ok (), (⟨x, seq, false⟩, r))

/-- C16 is false, for every class and every failure after the sequence number: the object stays in the middle of a
parse, and the next input is read without its sequence number, shifted by two bytes. -/
theorem c16_violated_exact {τ : Type} (cls : Class τ) (d d' : SequencedDataItem τ) (s : UInt16) (rest : Bytes) (c : Nat)
    (e : Exn) (r' : Reader) (hd : d.alreadyDeserializing = false)
    (fail : SequencedDataItem.deserialize cls (d, .buffer ⟨le 2 s.toNat ++ rest, c⟩) = (.throw e, (d', r'))) :
    d'.alreadyDeserializing = true ∧ d'.sequenceNum = s ∧
    ∀ r, SequencedDataItem.deserialize cls (d', r) =
      match cls.deserialize (d'.base, r) with
      | (x, (b, r1)) => (x, ({ d' with base := b }, r1)) := by
  have h1 := (ParsesAt.member_enc Codec.u16_lawful c (fun d : SequencedDataItem τ => d.sequenceNum)
    (fun v d => { d with sequenceNum := v }) d s).buffer rest
  have eb : Codec.u16.enc s = le 2 s.toNat := by simp [Codec.u16, le16_eq_le]
  rw [eb] at h1
  obtain ⟨b, sq, f⟩ := d
  simp only at hd
  subst hd
  have e0 : SequencedDataItem.deserialize cls (⟨b, sq, false⟩, .buffer ⟨le 2 s.toNat ++ rest, c⟩) =
      (do modifyObj (fun d => { d with alreadyDeserializing := true })
          SequencedDataItem.onBase cls.deserialize
          modifyObj (fun d => { d with alreadyDeserializing := false }) : Prog (SequencedDataItem τ × Reader) Unit)
        (⟨b, s, false⟩, .buffer ⟨rest, c + (le 2 s.toNat).length⟩) := by
    rw [SequencedDataItem.deserialize_fresh, Prog.bind_ok h1]
  rw [e0] at fail
  have e1 : (do modifyObj (fun d => { d with alreadyDeserializing := true })
                SequencedDataItem.onBase cls.deserialize
                modifyObj (fun d => { d with alreadyDeserializing := false }) :
                  Prog (SequencedDataItem τ × Reader) Unit)
        (⟨b, s, false⟩, .buffer ⟨rest, c + (le 2 s.toNat).length⟩) =
      (do SequencedDataItem.onBase cls.deserialize
          modifyObj (fun d => { d with alreadyDeserializing := false }) : Prog (SequencedDataItem τ × Reader) Unit)
        (⟨b, s, true⟩, .buffer ⟨rest, c + (le 2 s.toNat).length⟩) := rfl
  rw [e1] at fail
  have key : d'.alreadyDeserializing = true ∧ d'.sequenceNum = s := by
    cases hb : cls.deserialize (b, .buffer ⟨rest, c + (le 2 s.toNat).length⟩) with
    | mk res t =>
      obtain ⟨t, rt⟩ := t
      have e2 : SequencedDataItem.onBase cls.deserialize
          ((⟨b, s, true⟩ : SequencedDataItem τ), .buffer ⟨rest, c + (le 2 s.toNat).length⟩) = (res, (⟨t, s, true⟩, rt)) := by
        simp only [SequencedDataItem.onBase, onPart, Prog.zoom, hb]
      cases res with
      | ok u =>
        rw [Prog.bind_ok e2] at fail
        simp [modifyObj] at fail
      | throw ex =>
        rw [Prog.bind_throw e2] at fail
        simp only [Prod.mk.injEq] at fail
        obtain ⟨_, rfl, _⟩ := fail
        exact ⟨rfl, rfl⟩
      | ub u =>
        rw [Prog.bind_ub e2] at fail
        simp at fail
  refine ⟨key.1, key.2, fun r => ?_⟩
  obtain ⟨b', s', f'⟩ := d'
  simp only at key
  obtain ⟨rfl, rfl⟩ := key
  rfl

/-- C16 is false for sequenced address items: a truncated input followed by a good one. -/
theorem c16_violated : ¬ ReusableAfterFailure SequencedAddressItem.cls := by
  intro h
  have fail : SequencedDataItem.deserialize SequencedAddressItem.cls (⟨⟨0, 0⟩, 0, false⟩, .buffer ⟨[1, 0], 0⟩)
      = (.throw (lengthError "Buffer too small to deserialize value"), (⟨⟨0, 0⟩, 1, true⟩, .buffer ⟨[], 2⟩)) := by
    rfl
  obtain ⟨r, e⟩ := h _ _ _ 0 0 _ _ rfl fail 5 (seqAddress 7 9) ⟨7, 9⟩ (SequencedAddressItem.parses _ 7 9 _)
  have := (c16_violated_exact SequencedAddressItem.cls ⟨⟨0, 0⟩, 0, false⟩ _ 1 [] 0 _ _ rfl fail).2.2
    (.buffer ⟨le 2 (5 : UInt16).toNat ++ seqAddress 7 9, 0⟩)
  rw [e] at this
  have e2 : SequencedAddressItem.cls.deserialize (⟨0, 0⟩, .buffer ⟨le 2 (5 : UInt16).toNat ++ seqAddress 7 9, 0⟩)
      = (.ok (), (⟨458757, 589824⟩, .buffer ⟨[0, 0], 8⟩)) := by decide
  rw [e2] at this
  simp at this

/-- C16 is false for raw data read with a length, for all data: after an input that is shorter than the length it was
read with, the next input of `n` bytes with a correct length of `n` is read as `n - 2` bytes of data: its sequence number
is taken for data, its last two bytes are left over, and the sequence number is still that of the failed input. -/
theorem c16_violated_sized (d : SequencedDataItem SerializableBuffer) (hd : d.alreadyDeserializing = false)
    (s : UInt16) (rest : Bytes) (c n : Nat) (short : rest.length + 2 < n) (hn : n < 2 ^ 64) :
    ∃ d' r', SequencedDataItem.deserializeLen SerializableBuffer.cls n (d, .buffer ⟨le 2 s.toNat ++ rest, c⟩)
        = (.throw (lengthError "Buffer too small to deserialize value"), (d', r')) ∧
      ∀ (t : UInt16) (bs : Bytes) (c' : Nat), bs.length + 2 < 2 ^ 64 →
        SequencedDataItem.deserializeLen SerializableBuffer.cls (bs.length + 2) (d', .buffer ⟨le 2 t.toNat ++ bs, c'⟩)
          = (.ok (), (⟨⟨(le 2 t.toNat ++ bs).take bs.length⟩, s, true⟩,
              .buffer ⟨(le 2 t.toNat ++ bs).drop bs.length, c' + bs.length⟩)) := by
  obtain ⟨b, sq, f⟩ := d
  simp only at hd
  subst hd
  have h1 := (ParsesAt.member_enc Codec.u16_lawful c (fun d : SequencedDataItem SerializableBuffer => d.sequenceNum)
    (fun v d => { d with sequenceNum := v }) ⟨b, sq, false⟩ s).buffer rest
  have eb : Codec.u16.enc s = le 2 s.toNat := by simp [Codec.u16, le16_eq_le]
  rw [eb] at h1
  refine ⟨⟨b, s, true⟩, .buffer ⟨rest, c + (le 2 s.toNat).length⟩, ?_, fun t bs c' hb => ?_⟩
  · obtain ⟨k, rfl⟩ : ∃ k, n = k + 2 := ⟨n - 2, by omega⟩
    have hk : sizeSub (k + 2) 2 = k := by rw [sizeSub_of_le (by omega) hn]; omega
    have e2 : SequencedDataItem.onBase (SerializableBuffer.deserializeLen k)
        ((⟨b, s, true⟩ : SequencedDataItem SerializableBuffer), .buffer ⟨rest, c + (le 2 s.toNat).length⟩)
        = (.throw (lengthError "Buffer too small to deserialize value"),
            ((⟨b, s, true⟩ : SequencedDataItem SerializableBuffer), .buffer ⟨rest, c + (le 2 s.toNat).length⟩)) := by
      simp only [SequencedDataItem.onBase, onPart, Prog.zoom, SerializableBuffer.deserializeLen, BufferReader.readBuffer]
      rw [if_pos (by omega)]
    rw [SequencedDataItem.raw_fresh hk, Prog.bind_ok h1]
    generalize SequencedDataItem.onBase (SerializableBuffer.deserializeLen k) = p at e2
    show (do p
             modifyObj (fun d => { d with alreadyDeserializing := false }) :
              Prog (SequencedDataItem SerializableBuffer × Reader) Unit)
          (⟨b, s, true⟩, .buffer ⟨rest, c + (le 2 s.toNat).length⟩) = _
    rw [Prog.bind_throw e2]
  · have hk : sizeSub (bs.length + 2) 2 = bs.length := by rw [sizeSub_of_le (by omega) hb]; omega
    rw [SequencedDataItem.raw_stuck hk]
    simp only [SequencedDataItem.onBase, onPart, Prog.zoom, SerializableBuffer.deserializeLen, BufferReader.readBuffer]
    rw [if_neg (by simp)]

/-- Sequence number 1 and one byte, read as five bytes, is refused; then sequence number 7 and the bytes 8, 9 are read as the
data 7, 0 with the old sequence number 1. -/
example : (SequencedDataItem.deserializeLen SerializableBuffer.cls 5 (⟨⟨[]⟩, 0, false⟩, .buffer ⟨[1, 0, 3], 0⟩)).1
      = .throw (lengthError "Buffer too small to deserialize value") ∧
    (SequencedDataItem.deserializeLen SerializableBuffer.cls 4
      ((SequencedDataItem.deserializeLen SerializableBuffer.cls 5 (⟨⟨[]⟩, 0, false⟩, .buffer ⟨[1, 0, 3], 0⟩)).2.1,
        .buffer ⟨[7, 0, 8, 9], 0⟩)).2.1 = ⟨⟨[7, 0]⟩, 1, true⟩ := by decide +kernel

/-- C16 (partial: failures before the sequence number is complete). Then the object is unchanged and can be reused.
Missing: failures inside the item, for which it is false. -/
theorem c16_reuse_partial {τ : Type} (cls : Class τ) (d : SequencedDataItem τ) (bad : Bytes) (c : Nat)
    (hd : d.alreadyDeserializing = false) (short : bad.length < 2) :
    ∃ what r', SequencedDataItem.deserialize cls (d, .buffer ⟨bad, c⟩) = (.throw (lengthError what), (d, r')) := by
  obtain ⟨b, sq, f⟩ := d
  simp only at hd
  subst hd
  refine ⟨"Buffer too small to deserialize value", .buffer ⟨bad, c⟩, ?_⟩
  have h : readMember .u16 (fun d : SequencedDataItem τ => d.sequenceNum) (fun v d => { d with sequenceNum := v })
      (⟨b, sq, false⟩, .buffer ⟨bad, c⟩) =
      (.throw (lengthError "Buffer too small to deserialize value"), (⟨b, sq, false⟩, .buffer ⟨bad, c⟩)) := by
    simp only [readMember, Prog.bind_def, Prog.andThen, getObj, onReader, Prog.zoom, Reader.readInto,
      BufferReader.readBuffer, Codec.u16, le16_length]
    rw [if_pos short]
  rw [SequencedDataItem.deserialize_fresh, Prog.bind_throw h]

example : ([9] : Bytes).length < 2 := by decide

/-! ### C17 -/

/-- C17 is false for all data: the sequence number is left as it was and the two bytes of the sequence number stay
in front of the data. -/
theorem c17_violated (t s : UInt16) (rest : Bytes) (d : SequencedDataItem SerializableBuffer) :
    (⟨t, rawData (le 2 s.toNat ++ rest)⟩ : CPFItem).getDataAs (SequencedDataItem.cls SerializableBuffer.cls) d
      = (.ok (), { d with base := ⟨le 2 s.toNat ++ rest⟩ }) := by
  have hne : le 2 s.toNat ++ rest ≠ [] := by
    intro h
    have := congrArg List.length h
    rw [List.length_append, le_length] at this
    simp at this
  rw [rawData_of_ne hne]
  rfl

/-- C17 (partial): no byte is lost, the raw buffer holds all of the item's data. Missing: the separation of the
sequence number, which does not happen. -/
theorem c17_all_bytes_kept_partial (t : UInt16) (bs : Bytes) (hne : bs ≠ []) (d : SequencedDataItem SerializableBuffer) :
    ∃ d', (⟨t, rawData bs⟩ : CPFItem).getDataAs (SequencedDataItem.cls SerializableBuffer.cls) d = (.ok (), d') ∧
      d'.base.data = bs ∧ d'.sequenceNum = d.sequenceNum := by
  rw [rawData_of_ne hne]
  exact ⟨_, rfl, rfl, rfl⟩

/-- A sequence number 5 and one byte of data: the sequence number read is the default 0. -/
example : ((⟨0xB1, rawData [5, 0, 42]⟩ : CPFItem).getDataAs (SequencedDataItem.cls SerializableBuffer.cls)
    (SequencedDataItem.new ⟨[]⟩)).2 = ⟨⟨[5, 0, 42]⟩, 0, false⟩ := by decide

/-! ### C18, C19 -/

/-- C18. The exact outcome on every byte string. -/
theorem c18_exact_split (m : MessageRouterResponse) (bs : Bytes) (h : bs.length < 2147483648) :
    (∃ s r st k more, bs = s :: r :: st :: k :: more ∧ 2 * k.toNat ≤ more.length ∧
      MessageRouterResponse.deserializeSized bs.length (m, .buffer ⟨bs, 0⟩) =
        (.ok (), (⟨s, st, rawData (more.take (2 * k.toNat)), rawData (more.drop (2 * k.toNat))⟩,
          .buffer ⟨[], bs.length⟩))) ∨
    ((bs.length < 4 ∨ ∃ s r st k more, bs = s :: r :: st :: k :: more ∧ bs.length < 4 + 2 * k.toNat) ∧
      ∃ what m' r', MessageRouterResponse.deserializeSized bs.length (m, .buffer ⟨bs, 0⟩) =
        (.throw (lengthError what), (m', r'))) := by
  rcases covers_mrReply bs with ⟨cs, tail, ⟨s, r, st, k, a, ha, rfl⟩, e⟩ | ⟨cs, x, ⟨s, r, st, k, a, ha, rfl⟩, hx, e⟩
  · left
    have e' : bs = mrReply s r st k a tail := by rw [e]; simp [mrReply]
    have hl : bs.length = 4 + a.length + tail.length := by rw [e', mrReply_length]
    refine ⟨s, r, st, k, a ++ tail, by rw [e']; simp [mrReply], by simp; omega, ?_⟩
    have hp := (MessageRouterResponse.parsesAt 0 bs.length m s r st k (data := tail) ha (by
      have := mr_data_left 0 a.length tail.length (by decide) (by omega)
      rw [hl, this]; omega)).buffer []
    rw [List.append_nil, ← e'] at hp
    rw [hp]
    rw [← ha, List.take_left, List.drop_left, Nat.zero_add]
  · right
    have hlen := congrArg List.length e
    have hx' : 0 < x.length := List.length_pos_iff.mpr hx
    rw [mrReply_length, List.length_append, List.length_nil] at hlen
    constructor
    · by_cases h4 : bs.length < 4
      · exact Or.inl h4
      · right
        match bs, h4, e with
        | s' :: r' :: st' :: k' :: more, _, e =>
          simp only [mrReply, List.cons_append, List.nil_append, List.append_nil, List.cons.injEq] at e
          obtain ⟨rfl, rfl, rfl, rfl, _⟩ := e
          refine ⟨s, r, st, k, more, rfl, ?_⟩
          omega
        | [], h4, _ => simp at h4
        | [_], h4, _ => simp at h4
        | [_, _], h4, _ => simp at h4
        | [_, _, _], h4, _ => simp at h4
    · obtain ⟨data, hdata⟩ : ∃ data : Bytes, data.length =
          (sizeToInt (sizeSub bs.length (0 + 4 + a.length))).toNat := ⟨List.replicate _ 0, List.length_replicate⟩
      have hp := (MessageRouterResponse.parsesAt 0 bs.length m s r st k (data := data) ha hdata).short bs (x ++ data)
        (by
          have : mrReply s r st k a data = mrReply s r st k a [] ++ data := by simp [mrReply]
          rw [this, e, List.append_assoc]) (by simp [hx])
      obtain ⟨what, m', r', ep⟩ := hp
      exact ⟨what, m', .buffer r', ep⟩

/-- A response with one word of additional status and three bytes of data, and one cut inside the status. -/
example : (∃ s r st k more, ([0x8E, 0, 0, 1, 0xAA, 0xBB, 1, 2, 3] : Bytes) = s :: r :: st :: k :: more ∧
    2 * k.toNat ≤ more.length) ∧ (4 : Nat) + 2 * (1 : UInt8).toNat > ([0x8E, 0, 5, 1, 0xAA] : Bytes).length := by
  refine ⟨⟨0x8E, 0, 0, 1, [0xAA, 0xBB, 1, 2, 3], rfl, by decide⟩, by decide⟩

/-- C19 is false whenever other bytes were consumed before: the response data loses one byte for each of them. -/
theorem c19_violated (c : Nat) (m : MessageRouterResponse) (s r st k : UInt8) (a data tail : Bytes)
    (ha : a.length = 2 * k.toNat) (hc : c < 2147483648) (hd : (mrReply s r st k a data).length < 2147483648) :
    MessageRouterResponse.deserializeSized (mrReply s r st k a data).length
        (m, .buffer ⟨mrReply s r st k a data ++ tail, c⟩) =
      (.ok (), (⟨s, st, rawData a, rawData (data.take (data.length - c))⟩,
        .buffer ⟨data.drop (data.length - c) ++ tail, c + 4 + a.length + (data.length - c)⟩)) := by
  rw [mrReply_length] at hd ⊢
  have hp := (MessageRouterResponse.parsesAt c (4 + a.length + data.length) m s r st k
    (data := data.take (data.length - c)) ha (by
      rw [mr_data_left c a.length data.length hc hd, List.length_take]; omega)).buffer
    (data.drop (data.length - c) ++ tail)
  have e : mrReply s r st k a (data.take (data.length - c)) ++ (data.drop (data.length - c) ++ tail) =
      mrReply s r st k a data ++ tail := by
    simp only [mrReply, List.append_assoc]
    rw [← List.append_assoc (data.take _), List.take_append_drop]
  rw [e] at hp
  rw [hp, mrReply_length, List.length_take]
  simp only [Prod.mk.injEq, true_and, Reader.buffer.injEq, BufferReader.mk.injEq]
  omega

/-- After one byte, a response with two data bytes is parsed as one with one data byte. -/
example : (MessageRouterResponse.deserializeSized 6 (MessageRouterResponse.new,
    .buffer ⟨[0x8E, 0, 0, 0, 0x11, 0x22], 1⟩)).2.2 = .buffer ⟨[0x22], 6⟩ := by decide

/-- C19 (partial: nothing consumed before, fewer than 2^31 bytes). The full response is parsed and what follows is left alone. Missing:
readers that have delivered bytes before, for which it is false. -/
theorem c19_own_buffer_partial (m : MessageRouterResponse) (s r st k : UInt8) (a data tail : Bytes)
    (ha : a.length = 2 * k.toNat) (hd : (mrReply s r st k a data).length < 2147483648) :
    MessageRouterResponse.deserializeSized (mrReply s r st k a data).length
        (m, .buffer ⟨mrReply s r st k a data ++ tail, 0⟩) =
      (.ok (), (⟨s, st, rawData a, rawData data⟩, .buffer ⟨tail, (mrReply s r st k a data).length⟩)) := by
  have := c19_violated 0 m s r st k a data tail ha (by decide) hd
  rw [this]
  simp [mrReply_length]

/-! ### C20 -/

/-- C20. Every strict prefix of a valid message is rejected with `length_error`. -/
theorem c20_truncation_rejected (cut missing : Bytes) (hm : missing ≠ []) (c : Nat) :
    (∀ (d h : EncapHeader), Spec.header h = cut ++ missing →
      ∃ what s, EncapHeader.deserialize (d, .buffer ⟨cut, c⟩) = (.throw (lengthError what), s)) ∧
    (∀ (d : EncapPacket) (h : EncapHeader) (payload : Bytes), payload.length = h.length.toNat →
      Spec.header h ++ payload = cut ++ missing →
      ∃ what s, EncapPacket.deserialize (d, .buffer ⟨cut, c⟩) = (.throw (lengthError what), s)) ∧
    (∀ (d : CPFPacket) (l : List (UInt16 × Bytes)), CpfOk l → cpf l = cut ++ missing →
      ∃ what s, CPFPacket.deserialize (d, .buffer ⟨cut, c⟩) = (.throw (lengthError what), s)) ∧
    (∀ (d : RegisterSessionData) (v o : UInt16), register v o = cut ++ missing →
      ∃ what s, RegisterSessionData.deserialize (d, .buffer ⟨cut, c⟩) = (.throw (lengthError what), s)) ∧
    (∀ (d : SequencedAddressItem) (v o : UInt32), seqAddress v o = cut ++ missing →
      ∃ what s, SequencedAddressItem.deserialize (d, .buffer ⟨cut, c⟩) = (.throw (lengthError what), s)) ∧
    (∀ (d x : IdentityItemData), x.productName.length < 256 → identity x x.productName = cut ++ missing →
      ∃ what s, IdentityItemData.deserialize (d, .buffer ⟨cut, c⟩) = (.throw (lengthError what), s)) ∧
    (∀ (d : ForwardOpenSuccess) (oToT tToO : UInt32) (sn vendor : UInt16) (originator oApi tApi : UInt32)
      (k reserved : UInt8) (app : Bytes), app.length = 2 * k.toNat →
      forwardOpenReply oToT tToO sn vendor originator oApi tApi k reserved app = cut ++ missing →
      ∃ what s, ForwardOpenSuccess.deserialize (d, .buffer ⟨cut, c⟩) = (.throw (lengthError what), s)) ∧
    (∀ (d : ForwardCloseSuccess) (sn vendor : UInt16) (originator : UInt32) (k reserved : UInt8) (app : Bytes),
      app.length = 2 * k.toNat → forwardCloseReply sn vendor originator k reserved app = cut ++ missing →
      ∃ what s, ForwardCloseSuccess.deserialize (d, .buffer ⟨cut, c⟩) = (.throw (lengthError what), s)) := by
  have fin : ∀ {δ : Type} {p : Prog (δ × Reader) Unit} {d d' : δ} {bs : Bytes}, ParsesAt c p d bs () d' →
      bs = cut ++ missing → ∃ what s, p (d, .buffer ⟨cut, c⟩) = (.throw (lengthError what), s) := by
    intro δ p d d' bs hp e
    obtain ⟨what, d1, r1, h⟩ := hp.short cut missing e hm
    exact ⟨what, _, h⟩
  exact ⟨fun d h e => fin (EncapHeader.parses d h c) e,
    fun d h payload hl e => fin (EncapPacket.parses d h hl c) e,
    fun d l ok e => fin (CPFPacket.parses l ok.1 ok.2 d c) e,
    fun d v o e => fin (RegisterSessionData.parses d v o c) e,
    fun d v o e => fin (SequencedAddressItem.parses d v o c) e,
    fun d x hx e => fin (IdentityItemData.parses d x hx c) e,
    fun d a1 a2 a3 a4 a5 a6 a7 a8 a9 app ha e => fin (ForwardOpenSuccess.parses d a1 a2 a3 a4 a5 a6 a7 a8 a9 ha c) e,
    fun d a1 a2 a3 a4 a5 app ha e => fin (ForwardCloseSuccess.parses d a1 a2 a3 a4 a5 ha c) e⟩

example : register 1 0 = [1, 0, 0] ++ [0] := by decide

/-! ### C21 -/

/-- C21. Every deserializer of the library consumes a prefix of its buffer and ignores what follows. -/
theorem c21_parsing_is_local :
    ConsumesPrefix EncapHeader.deserialize ∧ ConsumesPrefix EncapPacket.deserialize ∧
    ConsumesPrefix CPFItem.deserialize ∧ ConsumesPrefix CPFPacket.deserialize ∧
    ConsumesPrefix RegisterSessionData.deserialize ∧ ConsumesPrefix SequencedAddressItem.deserialize ∧
    ConsumesPrefix IdentityItemData.deserialize ∧ ConsumesPrefix ForwardOpenSuccess.deserialize ∧
    ConsumesPrefix ForwardCloseSuccess.deserialize ∧ ConsumesPrefix RRData.cls.deserialize ∧
    ConsumesPrefix RRDataResponse.cls.deserialize ∧ ConsumesPrefix SerializableBuffer.deserialize ∧
    (∀ (τ : Type) (cd : Codec τ), ConsumesPrefix (SerializablePrimitive.deserialize cd)) ∧
    (∀ n, ConsumesPrefix (EncapPacket.deserializeSized n)) ∧ (∀ n, ConsumesPrefix (CPFItem.deserializeSized n)) ∧
    (∀ n, ConsumesPrefix (MessageRouterResponse.deserializeSized n)) ∧
    (∀ n, ConsumesPrefix (SerializableBuffer.deserializeLen n)) ∧
    (∀ (τ : Type) (cls : Class τ), ConsumesPrefix cls.deserialize → StreamAgrees cls.deserialize →
      ConsumesPrefix (SequencedDataItem.deserialize cls)) :=
  ⟨EncapHeader.uniform.consumes, EncapPacket.uniform.consumes, CPFItem.uniform.consumes, CPFPacket.uniform.consumes,
    RegisterSessionData.uniform.consumes, SequencedAddressItem.uniform.consumes, IdentityItemData.uniform.consumes,
    ForwardOpenSuccess.uniform.consumes, ForwardCloseSuccess.uniform.consumes, (RRData.uniform _ _ _).consumes,
    (RRData.uniform _ _ _).consumes, SerializableBuffer.uniform.consumes,
    fun _ cd => (SerializablePrimitive.uniform cd).consumes, fun n => (EncapPacket.uniformSized n).consumes,
    fun n => (CPFItem.uniformSized n).consumes, fun n => (MessageRouterResponse.uniformSized n).consumes,
    fun n => (Uniform.rawLen n).consumes, fun _ _ h g => (SequencedDataItem.uniform (.of h g)).consumes⟩

/-- A CPF packet with one item followed by two more bytes. -/
example : (CPFPacket.deserialize (⟨[]⟩, .buffer ⟨[1, 0, 0xB1, 0, 1, 0, 7, 9, 9], 0⟩)).2.2 = .buffer ⟨[9, 9], 7⟩ := by
  decide

/-! ### C22 -/

/-- C22 (partial: every class except `RRDataResponse`). Sized and unsized deserializers on any byte buffer. -/
theorem c22_never_crash_partial :
    NeverCrashes EncapHeader.deserialize ∧ NeverCrashes EncapPacket.deserialize ∧
    NeverCrashes CPFItem.deserialize ∧ NeverCrashes CPFPacket.deserialize ∧
    NeverCrashes RegisterSessionData.deserialize ∧ NeverCrashes SequencedAddressItem.deserialize ∧
    NeverCrashes IdentityItemData.deserialize ∧ NeverCrashes ForwardOpenSuccess.deserialize ∧
    NeverCrashes ForwardCloseSuccess.deserialize ∧ NeverCrashes RRData.cls.deserialize ∧
    NeverCrashes RRDataRequest.cls.deserialize ∧ NeverCrashes SerializableBuffer.deserialize ∧
    NeverCrashes MessageRouterResponse.cls.deserialize ∧
    (∀ (τ : Type) (cd : Codec τ), NeverCrashes (SerializablePrimitive.deserialize cd)) ∧
    (∀ n, NeverCrashes (EncapHeader.cls.runLen n)) ∧
    (∀ n, NeverCrashes (EncapPacket.deserializeSized n)) ∧ (∀ n, NeverCrashes (CPFItem.deserializeSized n)) ∧
    (∀ n, NeverCrashes (MessageRouterResponse.deserializeSized n)) ∧
    (∀ n, NeverCrashes (SerializableBuffer.deserializeLen n)) ∧
    (∀ (τ : Type) (cls : Class τ), NeverCrashes cls.deserialize → NeverCrashes (SequencedDataItem.deserialize cls)) :=
  ⟨EncapHeader.safe.never, EncapPacket.safe.never, CPFItem.safe.never, CPFPacket.safe.never,
    RegisterSessionData.safe.never, SequencedAddressItem.safe.never, IdentityItemData.safe.never,
    ForwardOpenSuccess.safe.never, ForwardCloseSuccess.safe.never, (RRData.safe (δ := RRData) _ _ (fun _ => pure ()) (fun _ _ => trivial)).never,
    (RRData.safe (δ := RRDataRequest) _ _ (fun _ => notImplemented) (fun _ _ => Or.inr rfl)).never, SerializableBuffer.safe.never,
    (Safe.raiseLogic _).never,
    fun _ cd => (SerializablePrimitive.safe cd).never,
    fun _ => (Safe.bind Safe.getObj (fun _ => Safe.ite (Safe.raiseLength _) EncapHeader.safe)).never,
    fun n => (EncapPacket.safeSized n).never,
    fun n => (CPFItem.safeSized n).never, fun n => (MessageRouterResponse.safeSized n).never,
    fun n => (Safe.rawLen n).never, fun _ _ h => SequencedDataItem.neverCrashes h⟩

/-- C22 is false for RR data responses: a null pointer is dereferenced for every input whose message item is empty,
and for no other input. -/
theorem c22_violated (d : RRDataResponse) (input : Bytes) (c : Nat) :
    (∃ s, RRDataResponse.cls.deserialize (d, .buffer ⟨input, c⟩) = (.ub .nullDeref, s)) ↔ RRBody input [] := by
  constructor
  · rintro ⟨s, e⟩
    rcases covers_rr input with ⟨cs, tail, ⟨handle, timeout, l, hl, rfl⟩, ei⟩ |
      ⟨cs, m, ⟨handle, timeout, l, hl, rfl⟩, hm, ei⟩
    · rw [ei, RRDataResponse.deserialize_body d handle timeout hl tail c] at e
      cases hc : rrCheck l with
      | error s => simp [hc] at e
      | ok body =>
        obtain ⟨more, rfl⟩ := rrCheck_ok.mp hc
        by_cases hb : body = []
        · subst hb
          exact ⟨handle, timeout, more, tail, hl, ei⟩
        · rw [hc] at e
          obtain ⟨x, d', e', hx⟩ := RRDataResponse.setData_safe { d with base := ⟨handle, timeout⟩ } 0x00B2 hb
          simp only [e', Prod.mk.injEq] at e
          rw [e.1] at hx
          exact absurd hx id
    · obtain ⟨what, d', r', h⟩ := RRData.deserialize_short (fun x : RRDataResponse => x.base)
        (fun b r => { r with base := b }) RRDataResponse.setData (fun _ _ => rfl) (fun _ _ _ => rfl) d handle timeout hl
        input m hm ei c
      have h' : RRDataResponse.cls.deserialize (d, .buffer ⟨input, c⟩) = (.throw (lengthError what), (d', .buffer r')) := h
      rw [h'] at e
      simp at e
  · rintro ⟨handle, timeout, more, tail, hl, e⟩
    have h := RRDataResponse.deserialize_body d handle timeout hl tail c
    rw [rrCheck_ok.mpr ⟨more, rfl⟩] at h
    simp only [RRDataResponse.setData_empty] at h
    rw [e]
    exact ⟨_, h⟩

/-- The shortest such input. -/
example : RRBody [0, 0, 0, 0, 0, 0, 2, 0, 0, 0, 0, 0, 0xB2, 0, 0, 0] [] :=
  ⟨0, 0, [], [], ⟨by decide, by decide⟩, by decide⟩

/-! ### C23 -/

/-- C23. Forward open and close replies, field by field. -/
theorem c23_reply_fields :
    (∀ (d : ForwardOpenSuccess) (oToT tToO : UInt32) (sn vendor : UInt16) (originator oApi tApi : UInt32)
      (k reserved : UInt8) (app : Bytes), app.length = 2 * k.toNat →
      Parses ForwardOpenSuccess.deserialize d
        (le 4 oToT.toNat ++ le 4 tToO.toNat ++ le 2 sn.toNat ++ le 2 vendor.toNat ++ le 4 originator.toNat ++
          le 4 oApi.toNat ++ le 4 tApi.toNat ++ [k, reserved] ++ app) ()
        { oToTConnectionId := oToT, tToOConnectionId := tToO, connectionSn := sn, originatorVendorId := vendor,
          originatorSn := originator, oToTApi := oApi, tToOApi := tApi, responseData := rawData app } ∧
      (le 4 oToT.toNat ++ le 4 tToO.toNat ++ le 2 sn.toNat ++ le 2 vendor.toNat ++ le 4 originator.toNat ++
          le 4 oApi.toNat ++ le 4 tApi.toNat ++ [k, reserved] ++ app).length = 26 + 2 * k.toNat) ∧
    (∀ (d : ForwardCloseSuccess) (sn vendor : UInt16) (originator : UInt32) (k reserved : UInt8) (app : Bytes),
      app.length = 2 * k.toNat →
      Parses ForwardCloseSuccess.deserialize d
        (le 2 sn.toNat ++ le 2 vendor.toNat ++ le 4 originator.toNat ++ [k, reserved] ++ app) ()
        { connectionSn := sn, originatorVendorId := vendor, originatorSn := originator, responseData := rawData app } ∧
      (le 2 sn.toNat ++ le 2 vendor.toNat ++ le 4 originator.toNat ++ [k, reserved] ++ app).length
        = 10 + 2 * k.toNat) := by
  refine ⟨fun d a1 a2 a3 a4 a5 a6 a7 k r app ha => ⟨ForwardOpenSuccess.parses d a1 a2 a3 a4 a5 a6 a7 k r ha, ?_⟩,
    fun d a1 a2 a3 k r app ha => ⟨ForwardCloseSuccess.parses d a1 a2 a3 k r ha, ?_⟩⟩
  · simp [le_length, ha]; omega
  · simp [le_length, ha]; omega

example : ([0xAA, 0xBB] : Bytes).length = 2 * (1 : UInt8).toNat := by decide

/-! ### C24 -/

/-- C24. Plain RR data is accepted exactly when its first item is an empty null address and its second an
unconnected message, and then the object holds the interface handle and the timeout in front of the items and the
reader stands behind the last item; otherwise `logic_error` or `length_error` is thrown. -/
theorem c24_acceptance (d : RRData) (input : Bytes) (c : Nat) :
    (∃ (handle : UInt32) (timeout : UInt16) (body : Bytes) (more : List (UInt16 × Bytes)) (used tail : Bytes),
      CpfOk ((0x0000, []) :: (0x00B2, body) :: more) ∧
      used = le 4 handle.toNat ++ le 2 timeout.toNat ++ cpf ((0x0000, []) :: (0x00B2, body) :: more) ∧
      input = used ++ tail ∧
      RRData.cls.deserialize (d, .buffer ⟨input, c⟩) =
        (.ok (), (⟨handle, timeout⟩, .buffer ⟨tail, c + used.length⟩))) ∨
    ((¬ ∃ body, RRBody input body) ∧ ∃ e s, RRData.cls.deserialize (d, .buffer ⟨input, c⟩) = (.throw e, s) ∧
      (e.kind = .logicError ∨ e.kind = .lengthError)) := by
  rcases covers_rr input with ⟨cs, tail, ⟨handle, timeout, l, hl, rfl⟩, ei⟩ |
      ⟨cs, m, ⟨handle, timeout, l, hl, rfl⟩, hm, ei⟩
  · have h := RRData.deserialize_eq (fun x : RRData => x) (fun b _ => b) (fun _ => pure ()) (fun _ _ => rfl)
      (fun _ _ _ => rfl) d handle timeout hl tail c
    rw [← ei] at h
    have h' : RRData.cls.deserialize (d, .buffer ⟨input, c⟩) = _ := h
    cases hc : rrCheck l with
    | error s =>
      right
      rw [hc] at h'
      refine ⟨?_, _, _, h', Or.inl rfl⟩
      rintro ⟨body, hb⟩
      obtain ⟨s', e'⟩ := RRData.ok_of_body d c hb
      rw [e'] at h'
      simp at h'
    | ok body =>
      left
      rw [hc] at h'
      obtain ⟨more, rfl⟩ := rrCheck_ok.mp hc
      exact ⟨handle, timeout, body, more, _, tail, hl, rfl, ei, h'⟩
  · right
    obtain ⟨what, d', r', h⟩ := RRData.deserialize_short (fun x : RRData => x) (fun b _ => b)
      (fun _ => pure ()) (fun _ _ => rfl) (fun _ _ _ => rfl) d handle timeout hl input m hm ei c
    have h' : RRData.cls.deserialize (d, .buffer ⟨input, c⟩) = _ := h
    refine ⟨?_, _, _, h', Or.inr rfl⟩
    rintro ⟨body, hb⟩
    obtain ⟨s', e'⟩ := RRData.ok_of_body d c hb
    rw [e'] at h'
    simp at h'

theorem deserializeFrom_eq {δ : Type} (c : Class δ) (bs : Bytes) (n : Nat) (d : δ) :
    deserializeFrom c bs n d = parsed c bs n d := by
  rw [deserializeFrom, parsed]
  rfl

/-- C24. RR data responses are accepted only with the same two items, the second holding a complete response, whose
contents are then in the object, with the interface handle and the timeout in front of the items. -/
theorem c24_response_acceptance (d d' : RRDataResponse) (payload : Bytes) (n : Nat)
    (e : parsed RRDataResponse.cls payload n d = (.ok (), d')) :
    ∃ (handle : UInt32) (timeout : UInt16) (s r st k : UInt8) (a data : Bytes) (more : List (UInt16 × Bytes))
      (tail : Bytes), a.length = 2 * k.toNat ∧
      CpfOk ((0x0000, []) :: (0x00B2, [s, r, st, k] ++ a ++ data) :: more) ∧
      payload = le 4 handle.toNat ++ le 2 timeout.toNat ++
        cpf ((0x0000, []) :: (0x00B2, [s, r, st, k] ++ a ++ data) :: more) ++ tail ∧
      d' = ⟨⟨handle, timeout⟩, ⟨s, st, rawData a, rawData data⟩⟩ := by
  rw [← deserializeFrom_eq] at e
  rcases RRDataResponse.parse_cases payload n d with ⟨s, st, a, data, h⟩ | h | ⟨ex, d1, h, _⟩
  · obtain ⟨r, k, ha, handle, timeout, more, tail, hl, rfl⟩ := h
    have e' := RRDataResponse.parse_fields s r st k ha handle timeout hl tail n d
    rw [e'] at e
    simp only [Prod.mk.injEq, true_and] at e
    exact ⟨handle, timeout, s, r, st, k, a, data, more, tail, ha, hl, rfl, e.symm⟩
  · obtain ⟨d1, e'⟩ := RRDataResponse.parse_empty h n d
    rw [e'] at e; simp at e
  · rw [h] at e; simp at e

/-- C24. And every such response is accepted, whatever the object held before. -/
theorem c24_response_accepted (d : RRDataResponse) (n : Nat) (handle : UInt32) (timeout : UInt16)
    (s r st k : UInt8) (a data : Bytes) (more : List (UInt16 × Bytes)) (tail : Bytes) (ha : a.length = 2 * k.toNat)
    (hl : CpfOk ((0x0000, []) :: (0x00B2, [s, r, st, k] ++ a ++ data) :: more)) :
    parsed RRDataResponse.cls (le 4 handle.toNat ++ le 2 timeout.toNat ++
        cpf ((0x0000, []) :: (0x00B2, [s, r, st, k] ++ a ++ data) :: more) ++ tail) n d =
      (.ok (), ⟨⟨handle, timeout⟩, ⟨s, st, rawData a, rawData data⟩⟩) :=
  RRDataResponse.parse_fields s r st k ha handle timeout hl tail n d

/-- One word of additional status, two bytes of data, a third item. -/
example : CpfOk ((0x0000, []) :: (0x00B2, [0x8E, 0, 1, 1] ++ [7, 8] ++ [1, 2]) :: [(0x8000, [9])]) :=
  ⟨by decide, by decide⟩

example : ∃ body, RRBody (rrData 0 0 [0x8E, 0, 0, 0, 1, 2]) body :=
  ⟨[0x8E, 0, 0, 0, 1, 2], 0, 0, [], [], ⟨by decide, by decide⟩, by decide⟩

/-! ### C65 -/

/-- C65. The four cases of `copy_serializable`. -/
theorem c65_copy {δ : Type} (c : Class δ) (d : δ) :
    (∀ (bs : Bytes), c.assignBuffer = none →
      copySerializable c (SerializableBuffer.obj ⟨bs⟩) d = parsed c bs bs.length d) ∧
    (∀ (o : Obj) (bs : Bytes), c.assignBuffer = none → o.asBuffer = none → Encodes o bs →
      copySerializable c o d = parsed c bs bs.length d) ∧
    (∀ (o : Obj) f, c.assignBuffer = some f → o.asBuffer = none →
      ∃ what, copySerializable c o d = (.throw (logicError what), d)) ∧
    (∀ (bs : Bytes) (b : SerializableBuffer),
      copySerializable SerializableBuffer.cls (SerializableBuffer.obj ⟨bs⟩) b = (.ok (), ⟨bs⟩)) := by
  simp only [← deserializeFrom_eq]
  refine ⟨fun bs hc => ?_, fun o bs hc ho he => ?_, fun o f hc ho => ?_, fun bs b => rfl⟩
  · simp only [copySerializable, SerializableBuffer.obj, SerializableBuffer.getLength, hc]
  · have h := he.writes.fits (BufferWriter.new (List.replicate o.getLength 0)) (by simp [BufferWriter.new, he.length])
    simp only [copySerializable, ho, hc, h]
    simp [BufferWriter.new, BufferWriter.memory, he.length]
  · exact ⟨_, by simp only [copySerializable, ho, hc, Prog.raise]; rfl⟩

/-- Copying a header into a packet's register data, structure to structure. -/
example : RegisterSessionData.cls.assignBuffer = none ∧ (RegisterSessionData.obj ⟨1, 2⟩).asBuffer = none ∧
    Encodes (RegisterSessionData.obj ⟨1, 2⟩) [1, 0, 2, 0] := ⟨rfl, rfl, RegisterSessionData.encodes ⟨1, 2⟩⟩

/-! ### C68, C69, C70 -/

/-- C68. An object that serializes at all writes the same bytes to a stream with room for them and to a large enough
buffer. -/
theorem c68_writers_agree (o : Obj) (bs : Bytes) (h : Encodes o bs) (w : StreamWriter) (hw : HasRoom w bs) (buf : Bytes)
    (hb : bs.length ≤ buf.length) :
    o.serialize (.stream w) = (.ok (), .stream ⟨w.out ++ bs, w.room.map (· - bs.length), true⟩) ∧
    o.serialize (.buffer (BufferWriter.new buf)) = (.ok (), .buffer ⟨bs, buf.drop bs.length, bs.length⟩) := by
  refine ⟨by rw [h.writes.stream w, hw.appended], ?_⟩
  have := h.writes.fits (BufferWriter.new buf) hb
  simpa [BufferWriter.new] using this

example : Encodes (RegisterSessionData.new).obj [1, 0, 0, 0] ∧ HasRoom ⟨[9], some 4, true⟩ [1, 0, 0, 0] :=
  ⟨RegisterSessionData.encodes _, rfl, by simp⟩

/-- C69. Streams with enough bytes give the same object and position as buffers. -/
theorem c69_readers_agree :
    StreamAgrees EncapHeader.deserialize ∧ StreamAgrees EncapPacket.deserialize ∧
    StreamAgrees CPFItem.deserialize ∧ StreamAgrees CPFPacket.deserialize ∧
    StreamAgrees RegisterSessionData.deserialize ∧ StreamAgrees SequencedAddressItem.deserialize ∧
    StreamAgrees IdentityItemData.deserialize ∧ StreamAgrees ForwardOpenSuccess.deserialize ∧
    StreamAgrees ForwardCloseSuccess.deserialize ∧ StreamAgrees RRData.cls.deserialize ∧
    StreamAgrees RRDataResponse.cls.deserialize ∧ StreamAgrees SerializableBuffer.deserialize ∧
    (∀ (τ : Type) (cd : Codec τ), StreamAgrees (SerializablePrimitive.deserialize cd)) ∧
    (∀ n, StreamAgrees (EncapPacket.deserializeSized n)) ∧ (∀ n, StreamAgrees (CPFItem.deserializeSized n)) ∧
    (∀ n, StreamAgrees (MessageRouterResponse.deserializeSized n)) ∧
    (∀ n, StreamAgrees (SerializableBuffer.deserializeLen n)) ∧
    (∀ (τ : Type) (cls : Class τ), ConsumesPrefix cls.deserialize → StreamAgrees cls.deserialize →
      StreamAgrees (SequencedDataItem.deserialize cls)) :=
  ⟨EncapHeader.uniform.agrees, EncapPacket.uniform.agrees, CPFItem.uniform.agrees, CPFPacket.uniform.agrees,
    RegisterSessionData.uniform.agrees, SequencedAddressItem.uniform.agrees, IdentityItemData.uniform.agrees,
    ForwardOpenSuccess.uniform.agrees, ForwardCloseSuccess.uniform.agrees, (RRData.uniform _ _ _).agrees,
    (RRData.uniform _ _ _).agrees, SerializableBuffer.uniform.agrees,
    fun _ cd => (SerializablePrimitive.uniform cd).agrees, fun n => (EncapPacket.uniformSized n).agrees,
    fun n => (CPFItem.uniformSized n).agrees, fun n => (MessageRouterResponse.uniformSized n).agrees,
    fun n => (Uniform.rawLen n).agrees, fun _ _ h g => (SequencedDataItem.uniform (.of h g)).agrees⟩

/-- The premise of C69 is met: a buffer parse that succeeds in the middle of some input. -/
example : RegisterSessionData.deserialize (⟨0, 0⟩, .buffer ⟨[1, 0, 2, 0, 9], 3⟩)
    = (.ok (), (⟨1, 2⟩, .buffer ⟨[9], 7⟩)) := by decide

end Eip
