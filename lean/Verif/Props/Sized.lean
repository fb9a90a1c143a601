import Verif.Lemmas.Sized
/-
C85 - C87: parses with a given length, reported length of parsed objects, sequenced items inside CPF items.
-/
namespace Eip
open Spec

/-! ### C85 -/

/-- C85. A sized parse of a packet accepts exactly the inputs that start with a packet of that total size, and then
consumes that many bytes; every other input and every other size is rejected with `length_error`. -/
theorem c85_packet (d : EncapPacket) (n c : Nat) (input : Bytes) :
    (∃ (h : EncapHeader) (payload tail : Bytes), payload.length = h.length.toNat ∧
      input = Spec.header h ++ payload ++ tail ∧ n = 24 + payload.length ∧
      EncapPacket.deserializeSized n (d, .buffer ⟨input, c⟩) =
        (.ok (), (⟨h, rawData payload⟩, .buffer ⟨tail, c + n⟩))) ∨
    ((¬ ∃ (h : EncapHeader) (payload tail : Bytes), payload.length = h.length.toNat ∧
      input = Spec.header h ++ payload ++ tail ∧ n = 24 + payload.length) ∧
      ∃ what s, EncapPacket.deserializeSized n (d, .buffer ⟨input, c⟩) = (.throw (lengthError what), s)) := by
  by_cases hn : n < 24
  · refine Or.inr ⟨?_, "Deserialization size less than header size", (d, .buffer ⟨input, c⟩), ?_⟩
    · rintro ⟨_, _, _, _, _, e⟩; omega
    · unfold EncapPacket.deserializeSized
      rw [Prog.bind_ok (show getObj (d, Reader.buffer ⟨input, c⟩) = (.ok d, (d, .buffer ⟨input, c⟩)) from rfl)]
      rw [if_pos (by simpa [EncapHeader.getLength] using hn)]
      rfl
  have e0 : EncapPacket.deserializeSized n (d, .buffer ⟨input, c⟩) =
      (do onPart (fun p : EncapPacket => p.header) (fun h (p : EncapPacket) => { p with header := h }) EncapHeader.deserialize
          let p ← getObj
          if n ≠ p.header.getLength + p.header.length.toNat then
            Prog.raise (lengthError "Packet length different than given to deserialize")
          else if p.header.length.toNat > 0 then do
            modifyObj (fun p => { p with payload := some SerializableBuffer.empty.obj })
            let sb ← readNewBuffer p.header.length.toNat
            modifyObj (fun p => { p with payload := some sb.obj })
          else
            modifyObj (fun p => { p with payload := none })) (d, .buffer ⟨input, c⟩) := by
    conv => lhs; unfold EncapPacket.deserializeSized
    rw [Prog.bind_ok (show getObj (d, Reader.buffer ⟨input, c⟩) = (.ok d, (d, .buffer ⟨input, c⟩)) from rfl)]
    rw [if_neg (by simpa [EncapHeader.getLength] using hn)]
  rcases covers_header input with ⟨cs, rest, ⟨h, rfl⟩, rfl⟩ | ⟨cs, m, ⟨h, rfl⟩, hm, e⟩
  · have uniq : ∀ (h' : EncapHeader) (p tail : Bytes), Spec.header h ++ rest = Spec.header h' ++ p ++ tail →
        h' = h ∧ rest = p ++ tail := by
      intro h' p tail e
      rw [List.append_assoc] at e
      have := List.append_inj e (by rw [header_length, header_length])
      exact ⟨(header_inj this.1).symm, this.2⟩
    by_cases hl : n = 24 + h.length.toNat
    · by_cases hr : h.length.toNat ≤ rest.length
      · left
        have hp : (rest.take h.length.toNat).length = h.length.toNat := by simp [hr]
        have hb := (EncapPacket.parsesSized d h hp c).buffer (rest.drop h.length.toNat)
        refine ⟨h, rest.take h.length.toNat, rest.drop h.length.toNat, hp, by simp, by omega, ?_⟩
        rw [hp, ← hl] at hb
        have el : (Spec.header h ++ rest.take h.length.toNat).length = n := by
          rw [List.length_append, header_length, hp, hl]
        rw [el] at hb
        simpa using hb
      · right
        constructor
        · rintro ⟨h', p, tail, hp, e, _⟩
          obtain ⟨rfl, rfl⟩ := uniq h' p tail e
          simp at hr; omega
        · have hp : (rest ++ List.replicate (h.length.toNat - rest.length) 0).length = h.length.toNat := by
            simp; omega
          obtain ⟨what, d1, r1, h1⟩ := (EncapPacket.parsesSized d h hp c).short (Spec.header h ++ rest)
            (List.replicate (h.length.toNat - rest.length) 0) (by simp) (by
              intro e
              have := congrArg List.length e
              simp at this; omega)
          rw [hp, ← hl] at h1
          exact ⟨what, _, h1⟩
    · right
      constructor
      · rintro ⟨h', p, tail, hp, e, hn'⟩
        obtain ⟨rfl, _⟩ := uniq h' p tail e
        omega
      · refine ⟨"Packet length different than given to deserialize",
          (⟨h, d.payload⟩, .buffer ⟨rest, c + (Spec.header h).length⟩), ?_⟩
        · have h1 := (ParsesAt.part (fun p : EncapPacket => p.header) (fun h p => { p with header := h }) d rfl
            (EncapHeader.parses d.header h c)).buffer rest
          rw [e0, Prog.bind_ok h1, Prog.bind_ok (show getObj _ = (.ok _, _) from rfl)]
          rw [if_pos (by simpa [EncapHeader.getLength] using hl)]
          rfl
  · right
    constructor
    · rintro ⟨h', p, tail, hp, rfl, _⟩
      have := congrArg List.length e
      have hm' := List.length_pos_iff.mpr hm
      simp only [List.length_append, header_length] at this
      omega
    · obtain ⟨what, d1, r1, h1⟩ := (ParsesAt.part (fun p : EncapPacket => p.header)
        (fun h p => { p with header := h }) d rfl (EncapHeader.parses d.header h c)).short input m e hm
      exact ⟨what, _, by rw [e0, Prog.bind_throw h1]⟩

/-- C85. A sized parse of a CPF item accepts exactly the inputs that start with an item of at most that size. -/
theorem c85_item (d : CPFItem) (n c : Nat) (input : Bytes) :
    (∃ (t : UInt16) (payload tail : Bytes), payload.length < 65536 ∧
      input = le 2 t.toNat ++ le 2 payload.length ++ payload ++ tail ∧ 4 + payload.length ≤ n ∧
      CPFItem.deserializeSized n (d, .buffer ⟨input, c⟩) =
        (.ok (), (⟨t, rawData payload⟩, .buffer ⟨tail, c + 4 + payload.length⟩))) ∨
    ((¬ ∃ (t : UInt16) (payload tail : Bytes), payload.length < 65536 ∧
      input = le 2 t.toNat ++ le 2 payload.length ++ payload ++ tail ∧ 4 + payload.length ≤ n) ∧
      ∃ what s, CPFItem.deserializeSized n (d, .buffer ⟨input, c⟩) = (.throw (lengthError what), s)) := by
  by_cases hn : n < 4
  · refine Or.inr ⟨?_, "Length given too small to parse CPF Item type and length", (d, .buffer ⟨input, c⟩), ?_⟩
    · rintro ⟨_, _, _, _, _, e⟩; omega
    · unfold CPFItem.deserializeSized
      rw [if_pos hn]
      rfl
  have front : ∀ (t v : UInt16), ParsesAt c (do
        readMember .u16 (·.itemType) (fun v (i : CPFItem) => { i with itemType := v })
        readLocal16) d (le 2 t.toNat ++ le 2 v.toNat) v ⟨t, d.data⟩ := by
    intro t v
    refine ParsesAt.congr_bytes (ParsesAt.bind (ParsesAt.member_enc Codec.u16_lawful _ _ _ _ t)
      (ParsesAt.local16 _ _ v)) ?_
    simp [Codec.u16, le16_eq_le]
  have e0 : CPFItem.deserializeSized n = ((do
        readMember .u16 (·.itemType) (fun v (i : CPFItem) => { i with itemType := v })
        readLocal16) >>= fun itemLength =>
        if n < itemLength.toNat + 4 then
          Prog.raise (lengthError "Length given too small to parse CPF Item Data")
        else CPFItem.deserializeData itemLength) := by
    unfold CPFItem.deserializeSized
    rw [if_neg hn, Prog.bind_assoc]
  have sh : Covers (fun cs => ∃ t v : UInt16, cs = le 2 t.toNat ++ le 2 v.toNat) := by
    refine (Covers.fixed 4).imp ?_
    intro cs hcs
    obtain ⟨x, y, rfl, hx, hy⟩ := split_length 2 2 hcs
    obtain ⟨t, rfl⟩ := exists_le16 x hx
    obtain ⟨v, rfl⟩ := exists_le16 y hy
    exact ⟨t, v, rfl⟩
  rcases sh input with ⟨cs, rest, ⟨t, v, rfl⟩, rfl⟩ | ⟨cs, m, ⟨t, v, rfl⟩, hm, e⟩
  · have uniq : ∀ (t' : UInt16) (p tail : Bytes), p.length < 65536 →
        le 2 t.toNat ++ le 2 v.toNat ++ rest = le 2 t'.toNat ++ le 2 p.length ++ p ++ tail →
        p.length = v.toNat ∧ rest = p ++ tail := by
      intro t' p tail hp e
      rw [List.append_assoc, List.append_assoc, List.append_assoc] at e
      have e1 := List.append_inj e (by rw [le_length, le_length])
      have e2 := List.append_inj e1.2 (by rw [le_length, le_length])
      have e3 := congrArg value e2.1
      rw [le_eq_leBytes, le_eq_leBytes, value_eq_leVal, value_eq_leVal, leVal_leBytes, leVal_leBytes] at e3
      have := v.toNat_lt
      rw [Nat.mod_eq_of_lt (by simpa using this), Nat.mod_eq_of_lt (by simpa using hp)] at e3
      exact ⟨e3.symm, e2.2⟩
    have h1 := (front t v).buffer rest
    by_cases hl : n < v.toNat + 4
    · right
      constructor
      · rintro ⟨t', p, tail, hp, e, hn'⟩
        have := (uniq t' p tail hp e).1
        omega
      · exact ⟨_, _, by rw [e0, Prog.bind_ok h1, if_pos hl]; rfl⟩
    · by_cases hr : v.toNat ≤ rest.length
      · left
        have hp : (rest.take v.toNat).length = v.toNat := by simp [hr]
        have hb := (CPFItem.parsesData ⟨t, d.data⟩ v hp (c + (le 2 t.toNat ++ le 2 v.toNat).length)).buffer
          (rest.drop v.toNat)
        rw [List.take_append_drop] at hb
        refine ⟨t, rest.take v.toNat, rest.drop v.toNat, by rw [hp]; exact v.toNat_lt, by simp [hp],
          by omega, ?_⟩
        rw [e0, Prog.bind_ok h1, if_neg hl, hb]
        simp [hp, le_length]
      · right
        constructor
        · rintro ⟨t', p, tail, hp, e, _⟩
          obtain ⟨ep, rfl⟩ := uniq t' p tail hp e
          simp at hr; omega
        · have hp : (rest ++ List.replicate (v.toNat - rest.length) 0).length = v.toNat := by simp; omega
          obtain ⟨what, d1, r1, h2⟩ := (CPFItem.parsesData ⟨t, d.data⟩ v hp
            (c + (le 2 t.toNat ++ le 2 v.toNat).length)).short rest
            (List.replicate (v.toNat - rest.length) 0) rfl (by
              intro e
              have := congrArg List.length e
              simp at this; omega)
          exact ⟨what, _, by rw [e0, Prog.bind_ok h1, if_neg hl, h2]⟩
  · right
    constructor
    · rintro ⟨t', p, tail, hp, rfl, _⟩
      have := congrArg List.length e
      have hm' := List.length_pos_iff.mpr hm
      simp [le_length] at this
      omega
    · obtain ⟨what, d1, r1, h1⟩ := (front t v).short input m e hm
      exact ⟨what, _, by rw [e0, Prog.bind_throw h1]⟩

/-- C85. A header is parsed with the length 24 and with no other. -/
theorem c85_header (d : EncapHeader) (n : Nat) (r : Reader) :
    (n = 24 → EncapHeader.cls.runLen n (d, r) = EncapHeader.deserialize (d, r)) ∧
    (n ≠ 24 → ∃ what, EncapHeader.cls.runLen n (d, r) = (.throw (lengthError what), (d, r))) := by
  constructor
  · rintro rfl
    rfl
  · intro h
    refine ⟨"Invalid length given for encapsulation packet header", ?_⟩
    show ((if EncapHeader.getLength d ≠ n then
      Prog.raise (lengthError "Invalid length given for encapsulation packet header")
      else EncapHeader.deserialize) : Prog (EncapHeader × Reader) Unit) (d, r) = _
    rw [if_pos (by simpa [EncapHeader.getLength] using Ne.symm h)]
    rfl

/-- A packet with two payload bytes and one byte of something else behind it is accepted with size 26 only. -/
example : (⟨0x65, 2, 0, 0, (0, 0), 0⟩ : EncapHeader).length.toNat = ([0xAA, 0xBB] : Bytes).length ∧
    26 = 24 + ([0xAA, 0xBB] : Bytes).length := by decide

/-! ### C86 -/

/-- C86 is false for plain RR data: whenever the message is not empty or more items follow, the object reports 16
bytes although more were consumed. -/
theorem c86_violated : ¬ ReportsConsumed RRData.cls.deserialize RRData.cls.getLength := by
  intro h
  have hl : CpfOk ((0x0000, []) :: (0x00B2, [0x8E, 0, 0, 0]) :: []) := ⟨by decide, by decide⟩
  have e := RRData.deserialize_eq (fun x : RRData => x) (fun b _ => b) (fun _ => pure ()) (fun _ _ => rfl)
    (fun _ _ _ => rfl) RRData.new 0 0 hl [] 0
  rw [rrCheck_ok.mpr ⟨_, rfl⟩] at e
  obtain ⟨used, tail, e1, e2, e3⟩ := h _ _ _ _ _ e
  have e4 := congrArg List.length e1
  have e5 : tail = [] := by
    simp only [Reader.buffer.injEq, BufferReader.mk.injEq] at e2
    exact e2.1.symm
  rw [e5] at e4
  have e6 : used.length = 16 := e3.symm
  have e7 : (rrBytes 0 0 [(0x0000, []), (0x00B2, [0x8E, 0, 0, 0])]).length = 20 := by decide
  simp only [List.append_nil] at e4
  omega

/-- C86 (partial: every class but plain `RRData`). An object that was parsed reports the number of bytes it was
parsed from. Missing: plain `RRData`, for which it is false (`RRDataRequest` cannot be parsed and `getLength` of
`RRDataResponse` throws); primitives and sequenced items are in `c86_primitive_partial` and `c86_sequenced_partial`. -/
theorem c86_reported_length_partial :
    ReportsConsumed EncapHeader.deserialize EncapHeader.getLength ∧
    ReportsConsumed EncapPacket.deserialize EncapPacket.getLength ∧
    ReportsConsumed CPFItem.deserialize CPFItem.getLength ∧
    ReportsConsumed CPFPacket.deserialize CPFPacket.getLength ∧
    ReportsConsumed RegisterSessionData.deserialize RegisterSessionData.getLength ∧
    ReportsConsumed SequencedAddressItem.deserialize SequencedAddressItem.getLength ∧
    ReportsConsumed IdentityItemData.deserialize IdentityItemData.getLength ∧
    ReportsConsumed ForwardOpenSuccess.deserialize ForwardOpenSuccess.getLength ∧
    ReportsConsumed ForwardCloseSuccess.deserialize ForwardCloseSuccess.getLength ∧
    (∀ n, ReportsConsumed (MessageRouterResponse.deserializeSized n) MessageRouterResponse.getLength) ∧
    (∀ n, ReportsConsumed (SerializableBuffer.deserializeLen n) SerializableBuffer.getLength) := by
  refine ⟨?_, ?_, ?_, ?_, ?_, ?_, ?_, ?_, ?_, ?_, ?_⟩
  · refine Eip.ReportsConsumed.of_covers (fun _ => covers_header) ?_
    rintro c d cs ⟨h, rfl⟩
    exact ⟨h, EncapHeader.parses d h c, by rw [header_length]; rfl⟩
  · refine Eip.ReportsConsumed.of_covers (fun _ => covers_encap) ?_
    rintro c d cs ⟨h, p, hp, rfl⟩
    refine ⟨_, EncapPacket.parses d h hp c, ?_⟩
    rcases rawData_cases p with ⟨e1, e2⟩ | ⟨o, e1, e2⟩ <;>
        simp only [EncapPacket.getLength, e1, e2, EncapHeader.getLength, List.length_append, header_length]
  · refine Eip.ReportsConsumed.of_covers (fun _ => covers_item) ?_
    rintro c d cs ⟨t, p, hp, rfl⟩
    refine ⟨_, CPFItem.parses d t hp c, ?_⟩
    have := parsedItems_reported [(t, p)] (by simpa using hp) 0
    simpa [parsedItems] using this
  · refine Eip.ReportsConsumed.of_covers (fun _ => covers_cpf) ?_
    rintro c d cs ⟨l, hl, rfl⟩
    refine ⟨_, CPFPacket.parses l hl.1 hl.2 d c, ?_⟩
    rw [CPFPacket.getLength, parsedItems_reported l hl.2]
    simp [cpf, le_length]
  · refine Eip.ReportsConsumed.of_covers (fun _ => covers_register) ?_
    rintro c d cs ⟨v, o, rfl⟩
    exact ⟨_, RegisterSessionData.parses d v o c, by simp [register, le_length, RegisterSessionData.getLength]⟩
  · refine Eip.ReportsConsumed.of_covers (fun _ => covers_seqAddress) ?_
    rintro c d cs ⟨v, o, rfl⟩
    exact ⟨_, SequencedAddressItem.parses d v o c, by simp [seqAddress, le_length, SequencedAddressItem.getLength]⟩
  · refine Eip.ReportsConsumed.of_covers (fun _ => covers_identity) ?_
    rintro c d cs ⟨x, hx, rfl⟩
    refine ⟨_, IdentityItemData.parses d x hx c, ?_⟩
    simp only [identity, sockaddr, le_length, IdentityItemData.getLength, List.length_append, List.length_cons,
      List.length_nil]
  · refine Eip.ReportsConsumed.of_covers (fun _ => covers_forwardOpenReply) ?_
    rintro c d cs ⟨a1, a2, a3, a4, a5, a6, a7, k, r, app, ha, rfl⟩
    refine ⟨_, ForwardOpenSuccess.parses d a1 a2 a3 a4 a5 a6 a7 k r ha c, ?_⟩
    rcases rawData_cases app with ⟨e1, e2⟩ | ⟨o, e1, e2⟩ <;>
        simp only [ForwardOpenSuccess.getLength, e1, e2, forwardOpenReply, le_length, List.length_append,
      List.length_cons, List.length_nil]
  · refine Eip.ReportsConsumed.of_covers (fun _ => covers_forwardCloseReply) ?_
    rintro c d cs ⟨a1, a2, a3, k, r, app, ha, rfl⟩
    refine ⟨_, ForwardCloseSuccess.parses d a1 a2 a3 k r ha c, ?_⟩
    rcases rawData_cases app with ⟨e1, e2⟩ | ⟨o, e1, e2⟩ <;>
        simp only [ForwardCloseSuccess.getLength, e1, e2, forwardCloseReply, le_length, List.length_append,
      List.length_cons, List.length_nil]
  · intro n
    refine Eip.ReportsConsumed.of_covers (fun c => covers_mrAt c n) ?_
    rintro c d cs ⟨s, r, st, k, a, data, ha, hd, rfl⟩
    refine ⟨_, MessageRouterResponse.parsesAt c n d s r st k ha hd, ?_⟩
    rcases rawData_cases a with ⟨e1, e2⟩ | ⟨o, e1, e2⟩ <;> rcases rawData_cases data with ⟨e3, e4⟩ | ⟨o', e3, e4⟩ <;>
        simp only [MessageRouterResponse.getLength, e1, e2, e3, e4, mrReply, List.length_append, List.length_cons,
      List.length_nil]
  · intro n
    refine Eip.ReportsConsumed.of_covers (fun _ => Covers.fixed n) ?_
    rintro c d cs rfl
    exact ⟨_, ParsesAt.rawBuffer c d cs, rfl⟩

/-- A packet with payload `aa bb` in front of other bytes: the hypothesis of `ReportsConsumed` is met. -/
example : ∃ p r, EncapPacket.deserialize (EncapPacket.new,
    .buffer ⟨Spec.header ⟨0x65, 2, 0, 0, (0, 0), 0⟩ ++ [0xAA, 0xBB] ++ [0xFF], 0⟩) = (.ok (), (p, r)) :=
  ⟨_, _, (EncapPacket.parses EncapPacket.new ⟨0x65, 2, 0, 0, (0, 0), 0⟩ (payload := [0xAA, 0xBB]) rfl 0).buffer [0xFF]⟩

/-- C86 (partial: primitives). Missing: as for `c86_reported_length_partial`. -/
theorem c86_primitive_partial {τ : Type} (cd : Codec τ) (n : Nat) (law : cd.Lawful n) :
    ReportsConsumed (SerializablePrimitive.deserialize cd) (SerializablePrimitive.getLength cd) := by
  refine Eip.ReportsConsumed.of_covers (fun _ => Covers.fixed n) ?_
  rintro c d cs hc
  refine ⟨⟨cd.dec cs⟩, ?_, congrArg List.length (law.enc_dec cs hc)⟩
  have := SerializablePrimitive.parses law d (cd.dec cs) c
  rwa [law.enc_dec cs hc] at this

example : Codec.u32.Lawful 4 := Codec.u32_lawful

/-- What an unsized parse of a sequenced item does once the sequence number is there. -/
theorem SequencedDataItem.deserialize_number {τ : Type} (cls : Class τ) (b : τ) (sq s : UInt16) (rest : Bytes) (c : Nat)
    (t : τ) (r : Reader) (hb : cls.deserialize (b, .buffer ⟨rest, c + 2⟩) = (.ok (), (t, r))) :
    SequencedDataItem.deserialize cls (⟨b, sq, false⟩, .buffer ⟨le 2 s.toNat ++ rest, c⟩) = (.ok (), (⟨t, s, false⟩, r)) := by
  have h1 := (ParsesAt.member_enc Codec.u16_lawful c (fun d : SequencedDataItem τ => d.sequenceNum)
    (fun v d => { d with sequenceNum := v }) ⟨b, sq, false⟩ s).buffer rest
  have eb : Codec.u16.enc s = le 2 s.toNat := by simp [Codec.u16, le16_eq_le]
  rw [eb, le_length] at h1
  have e2 : SequencedDataItem.onBase cls.deserialize
      ((⟨b, s, true⟩ : SequencedDataItem τ), .buffer ⟨rest, c + 2⟩) = (.ok (), (⟨t, s, true⟩, r)) := by
    simp only [SequencedDataItem.onBase, onPart, Prog.zoom, hb]
  rw [SequencedDataItem.deserialize_fresh, Prog.bind_ok h1]
  have e1 : (do modifyObj (fun d => { d with alreadyDeserializing := true })
                SequencedDataItem.onBase cls.deserialize
                modifyObj (fun d => { d with alreadyDeserializing := false }) :
                  Prog (SequencedDataItem τ × Reader) Unit)
        (⟨b, s, false⟩, .buffer ⟨rest, c + 2⟩) =
      (do SequencedDataItem.onBase cls.deserialize
          modifyObj (fun d => { d with alreadyDeserializing := false }) : Prog (SequencedDataItem τ × Reader) Unit)
        (⟨b, s, true⟩, .buffer ⟨rest, c + 2⟩) := rfl
  refine e1.trans ?_
  rw [Prog.bind_ok e2]
  rfl

/-- C86 (partial: sequenced items that are not in the middle of a parse). If `T` reports what it was parsed from, so does
`SequencedDataItem<T>`. Missing: objects left behind by a failed parse, for which it is false
(`c86_violated_sequenced`). -/
theorem c86_sequenced_partial {τ : Type} (cls : Class τ) (base : ReportsConsumed cls.deserialize cls.getLength)
    (d d' : SequencedDataItem τ) (fresh : d.alreadyDeserializing = false) (input : Bytes) (c : Nat) (r : Reader)
    (e : SequencedDataItem.deserialize cls (d, .buffer ⟨input, c⟩) = (.ok (), (d', r))) :
    ∃ used tail, input = used ++ tail ∧ r = .buffer ⟨tail, c + used.length⟩ ∧
      SequencedDataItem.getLength cls d' = used.length := by
  obtain ⟨b, sq, f⟩ := d
  simp only at fresh
  subst fresh
  rw [SequencedDataItem.deserialize_fresh] at e
  rcases Covers.fixed 2 input with ⟨cs, rest, hl, rfl⟩ | ⟨cs, m, hl, hm, ei⟩
  · obtain ⟨s, rfl⟩ := exists_le16 cs hl
    have h1 := (ParsesAt.member_enc Codec.u16_lawful c (fun d : SequencedDataItem τ => d.sequenceNum)
      (fun v d => { d with sequenceNum := v }) ⟨b, sq, false⟩ s).buffer rest
    have eb : Codec.u16.enc s = le 2 s.toNat := by simp [Codec.u16, le16_eq_le]
    rw [eb, le_length] at h1
    cases hb : cls.deserialize (b, .buffer ⟨rest, c + 2⟩) with
    | mk res t =>
      obtain ⟨t, rt⟩ := t
      cases res with
      | ok u =>
        have hn := SequencedDataItem.deserialize_number cls b sq s rest c t rt hb
        rw [SequencedDataItem.deserialize_fresh, e] at hn
        obtain ⟨used, tail, rfl, rfl, hg⟩ := base _ _ _ _ _ hb
        simp only [Prod.mk.injEq, true_and] at hn
        obtain ⟨rfl, rfl⟩ := hn
        refine ⟨le 2 s.toNat ++ used, tail, by rw [List.append_assoc], ?_, ?_⟩
        · rw [List.length_append, le_length, Nat.add_assoc]
        · simp only [SequencedDataItem.getLength, hg, List.length_append, le_length]
      | throw x =>
        exfalso
        rw [Prog.bind_ok h1] at e
        simp [modifyObj, SequencedDataItem.onBase, onPart, Prog.zoom, hb, bind, Prog.andThen] at e
      | ub x =>
        exfalso
        rw [Prog.bind_ok h1] at e
        simp [modifyObj, SequencedDataItem.onBase, onPart, Prog.zoom, hb, bind, Prog.andThen] at e
  · exfalso
    obtain ⟨s, hs⟩ := exists_le16 cs hl
    have eb : Codec.u16.enc s = le 2 s.toNat := by simp [Codec.u16, le16_eq_le]
    obtain ⟨what, d1, r1, e1⟩ := (ParsesAt.member_enc Codec.u16_lawful c (fun d : SequencedDataItem τ => d.sequenceNum)
      (fun v d => { d with sequenceNum := v }) ⟨b, sq, false⟩ s).short input m (by rw [eb, ← hs, ei]) hm
    simp [bind, Prog.andThen, e1] at e

/-- C86 is false for a sequenced item left behind by a failed parse: the next parse that returns consumes two bytes fewer
than the object then reports, for every class `T` that itself reports what it was parsed from. -/
theorem c86_violated_sequenced {τ : Type} (cls : Class τ) (base : ReportsConsumed cls.deserialize cls.getLength)
    (d d' : SequencedDataItem τ) (stuck : d.alreadyDeserializing = true) (input : Bytes) (c : Nat) (r : Reader)
    (e : SequencedDataItem.deserialize cls (d, .buffer ⟨input, c⟩) = (.ok (), (d', r))) :
    ∃ used tail, input = used ++ tail ∧ r = .buffer ⟨tail, c + used.length⟩ ∧
      SequencedDataItem.getLength cls d' = used.length + 2 := by
  obtain ⟨b, sq, f⟩ := d
  simp only at stuck
  subst stuck
  have e0 : SequencedDataItem.deserialize cls (⟨b, sq, true⟩, .buffer ⟨input, c⟩) =
      SequencedDataItem.onBase cls.deserialize (⟨b, sq, true⟩, .buffer ⟨input, c⟩) := rfl
  rw [e0] at e
  cases hb : cls.deserialize (b, .buffer ⟨input, c⟩) with
  | mk res t =>
    obtain ⟨t, rt⟩ := t
    simp only [SequencedDataItem.onBase, onPart, Prog.zoom, hb, Prod.mk.injEq] at e
    obtain ⟨rfl, rfl, rfl⟩ := e
    obtain ⟨used, tail, h1, h2, h3⟩ := base _ _ _ _ _ hb
    exact ⟨used, tail, h1, h2, by simp only [SequencedDataItem.getLength, h3]; omega⟩

/-- A sequenced address parsed afresh from ten bytes, and from eight by an object left in the middle of a parse. -/
example :
    (∃ d' r, SequencedDataItem.deserialize SequencedAddressItem.cls (⟨⟨0, 0⟩, 0, false⟩,
      .buffer ⟨[1, 0, 7, 0, 0, 0, 9, 0, 0, 0, 0xFF], 0⟩) = (.ok (), (d', r)) ∧
      SequencedDataItem.getLength SequencedAddressItem.cls d' = 10) ∧
    ∃ d' r, SequencedDataItem.deserialize SequencedAddressItem.cls (⟨⟨0, 0⟩, 0, true⟩,
      .buffer ⟨[7, 0, 0, 0, 9, 0, 0, 0, 0xFF], 0⟩) = (.ok (), (d', r)) ∧
      SequencedDataItem.getLength SequencedAddressItem.cls d' = 10 := ⟨⟨_, _, rfl, rfl⟩, ⟨_, _, rfl, rfl⟩⟩

/-! ### C87 -/

/-- C87 for one class `T`: when `bs` alone in a buffer parses as the `T` object `x`, a CPF item holding a sequence
number and `bs` is read as that sequence number and `x`. -/
def ReadsSequenced {τ : Type} (cls : Class τ) : Prop :=
  ∀ (t seq : UInt16) (bs : Bytes) (x : τ) (d : SequencedDataItem τ), d.alreadyDeserializing = false →
    bs.length < 65534 →
    cls.runLen bs.length (d.base, .buffer ⟨bs, 0⟩) = (.ok (), (x, .buffer ⟨[], bs.length⟩)) →
    (⟨t, rawData (le 2 seq.toNat ++ bs)⟩ : CPFItem).getDataAs (SequencedDataItem.cls cls) d = (.ok (), ⟨x, seq, false⟩)

/-- C87 is false for encapsulation headers: every one of them is rejected, and the object is left in the middle of
a parse. -/
theorem c87_violated_header (t seq : UInt16) (h : EncapHeader) (d : SequencedDataItem EncapHeader)
    (hd : d.alreadyDeserializing = false) :
    ∃ what, (⟨t, rawData (le 2 seq.toNat ++ Spec.header h)⟩ : CPFItem).getDataAs
      (SequencedDataItem.cls EncapHeader.cls) d = (.throw (lengthError what), ⟨d.base, seq, true⟩) := by
  rw [getDataAs_sequenced EncapHeader.cls rfl t seq (Spec.header h) d hd (by rw [header_length]; decide)]
  refine ⟨"Invalid length given for encapsulation packet header", ?_⟩
  rw [header_length]
  rfl

/-- C87 is false for message router responses: the last two bytes of the response data are lost. -/
theorem c87_violated_response (t seq : UInt16) (s r st k : UInt8) (a data : Bytes)
    (d : SequencedDataItem MessageRouterResponse) (hd : d.alreadyDeserializing = false)
    (ha : a.length = 2 * k.toNat) (hl : ([s, r, st, k] ++ a ++ data).length < 65534) :
    (⟨t, rawData (le 2 seq.toNat ++ ([s, r, st, k] ++ a ++ data))⟩ : CPFItem).getDataAs
      (SequencedDataItem.cls MessageRouterResponse.cls) d =
      (.ok (), ⟨⟨s, st, rawData a, rawData (data.take (data.length - 2))⟩, seq, false⟩) := by
  rw [getDataAs_sequenced MessageRouterResponse.cls rfl t seq _ d hd hl]
  have hs : ([s, r, st, k] ++ a ++ data).length = 4 + a.length + data.length := by simp; omega
  have hn := mr_data_left 2 a.length data.length (by omega) (by omega)
  have ht : (data.take (data.length - 2)).length =
      (sizeToInt (sizeSub ([s, r, st, k] ++ a ++ data).length (2 + 4 + a.length))).toNat := by
    rw [hs, hn, List.length_take]
    omega
  have hp := (MessageRouterResponse.parsesAt 2 ([s, r, st, k] ++ a ++ data).length d.base s r st k ha ht).buffer
    (data.drop (data.length - 2))
  have e : mrReply s r st k a (data.take (data.length - 2)) ++ data.drop (data.length - 2) =
      [s, r, st, k] ++ a ++ data := by
    simp [mrReply]
  rw [e] at hp
  exact congrArg SequencedDataItem.finish (sequenced_onBase hp seq)

/-- C87 is false. -/
theorem c87_violated : ¬ ReadsSequenced EncapHeader.cls ∧ ¬ ReadsSequenced MessageRouterResponse.cls := by
  constructor
  · intro h
    have e := h 0xB1 7 (Spec.header (EncapHeader.new 0x65 1)) (EncapHeader.new 0x65 1)
      (SequencedDataItem.new EncapHeader.new) rfl (by rw [header_length]; decide) (by
        have := (EncapHeader.parses EncapHeader.new (EncapHeader.new 0x65 1) 0).buffer []
        rw [List.append_nil, Nat.zero_add] at this
        rw [(c85_header _ _ _).1 (header_length _)]
        exact this)
    obtain ⟨what, e'⟩ := c87_violated_header 0xB1 7 (EncapHeader.new 0x65 1) (SequencedDataItem.new EncapHeader.new) rfl
    rw [e'] at e
    simp at e
  · intro h
    have e := h 0xB1 7 [0x8E, 0, 0, 0, 1, 2, 3] ⟨0x8E, 0, none, rawData [1, 2, 3]⟩
      (SequencedDataItem.new MessageRouterResponse.new) rfl (by decide) (by
        have := (MessageRouterResponse.parsesAt 0 7 MessageRouterResponse.new 0x8E 0 0 0 (a := []) (data := [1, 2, 3])
          (by decide) (by decide)).buffer []
        exact this)
    have e' := c87_violated_response 0xB1 7 0x8E 0 0 0 [] [1, 2, 3] (SequencedDataItem.new MessageRouterResponse.new) rfl
      (by decide) (by decide)
    have e2 := e.symm.trans e'
    simp [rawData, SerializableBuffer.obj, SerializableBuffer.getLength] at e2

/-- C87 (partial: every other class that can be parsed). Missing: headers and message router responses, for which it
is false, and raw buffers, which are covered by C17. -/
theorem c87_sequenced_partial :
    ReadsSequenced EncapPacket.cls ∧ ReadsSequenced CPFItem.cls ∧ ReadsSequenced CPFPacket.cls ∧
    ReadsSequenced RegisterSessionData.cls ∧ ReadsSequenced SequencedAddressItem.cls ∧
    ReadsSequenced IdentityItemData.cls ∧ ReadsSequenced ForwardOpenSuccess.cls ∧
    ReadsSequenced ForwardCloseSuccess.cls ∧ ReadsSequenced RRData.cls ∧ ReadsSequenced RRDataResponse.cls ∧
    (∀ (τ : Type) (cd : Codec τ) (n : Nat), cd.Lawful n → ReadsSequenced (SerializablePrimitive.cls cd)) := by
  refine ⟨?_, ?_, ?_, ?_, ?_, ?_, ?_, ?_, ?_, ?_, ?_⟩
  · intro t seq bs x d hd hl h
    refine readsSequenced_own EncapPacket.cls EncapPacket.deserializeSized rfl rfl hd hl (r := .buffer ⟨[], 2 + bs.length⟩) ?_
    rcases c85_packet d.base bs.length 0 bs with ⟨h', p, tail, hp, e, hn, r⟩ | ⟨_, what, s, r⟩
    · have h0 := r.symm.trans h
      simp only [Prod.mk.injEq, true_and, Reader.buffer.injEq, BufferReader.mk.injEq] at h0
      obtain ⟨rfl, rfl, _⟩ := h0
      have := (EncapPacket.parsesSized d.base h' hp 2).buffer []
      rw [List.append_nil] at e this
      rw [← e, ← hn] at this
      exact this
    · have h0 := r.symm.trans h
      simp at h0
  · intro t seq bs x d hd hl h
    refine readsSequenced_own CPFItem.cls CPFItem.deserializeSized rfl rfl hd hl (r := .buffer ⟨[], 2 + bs.length⟩) ?_
    rcases c85_item d.base bs.length 0 bs with ⟨t', p, tail, hp, e, hn, r⟩ | ⟨_, what, s, r⟩
    · have h0 := r.symm.trans h
      simp only [Prod.mk.injEq, true_and, Reader.buffer.injEq, BufferReader.mk.injEq] at h0
      obtain ⟨rfl, rfl, _⟩ := h0
      have := (CPFItem.parsesSized d.base t' hp bs.length hn 2).buffer []
      rw [List.append_nil] at e this
      rw [item, ← e] at this
      exact this
    · have h0 := r.symm.trans h
      simp at h0
  · exact readsSequenced_delegate CPFPacket.cls rfl rfl (Movable.of_covers covers_cpf (by
      rintro cs ⟨l, hl, rfl⟩
      exact ⟨fun _ => _, fun c d => CPFPacket.parses l hl.1 hl.2 d c⟩))
  · exact readsSequenced_delegate RegisterSessionData.cls rfl rfl (Movable.of_covers covers_register (by
      rintro cs ⟨v, o, rfl⟩
      exact ⟨fun _ => _, fun c d => RegisterSessionData.parses d v o c⟩))
  · exact readsSequenced_delegate SequencedAddressItem.cls rfl rfl (Movable.of_covers covers_seqAddress (by
      rintro cs ⟨v, o, rfl⟩
      exact ⟨fun _ => _, fun c d => SequencedAddressItem.parses d v o c⟩))
  · exact readsSequenced_delegate IdentityItemData.cls rfl rfl (Movable.of_covers covers_identity (by
      rintro cs ⟨x, hx, rfl⟩
      exact ⟨fun _ => _, fun c d => IdentityItemData.parses d x hx c⟩))
  · exact readsSequenced_delegate ForwardOpenSuccess.cls rfl rfl (Movable.of_covers covers_forwardOpenReply (by
      rintro cs ⟨a1, a2, a3, a4, a5, a6, a7, k, r, app, ha, rfl⟩
      exact ⟨fun _ => _, fun c d => ForwardOpenSuccess.parses d a1 a2 a3 a4 a5 a6 a7 k r ha c⟩))
  · exact readsSequenced_delegate ForwardCloseSuccess.cls rfl rfl (Movable.of_covers covers_forwardCloseReply (by
      rintro cs ⟨a1, a2, a3, k, r, app, ha, rfl⟩
      exact ⟨fun _ => _, fun c d => ForwardCloseSuccess.parses d a1 a2 a3 k r ha c⟩))
  · exact readsSequenced_delegate RRData.cls rfl rfl
      (Movable.rr (fun x : RRData => x) (fun b _ => b) (fun _ => pure ()) (fun _ _ => rfl) (fun _ _ _ => rfl))
  · exact readsSequenced_delegate RRDataResponse.cls rfl rfl
      (Movable.rr (fun x : RRDataResponse => x.base) (fun b r => { r with base := b }) RRDataResponse.setData
        (fun _ _ => rfl) (fun _ _ _ => rfl))
  · intro τ cd n law
    exact readsSequenced_delegate (SerializablePrimitive.cls cd) rfl rfl (Movable.of_covers (Covers.fixed n) (by
      intro cs hcs
      exact ⟨fun _ => ⟨cd.dec cs⟩, fun c d => ParsesAt.member law c (fun v : SerializablePrimitive τ => v.data)
        (fun x v => { v with data := x }) d cs hcs⟩))

/-- Sequence number 7 in front of registration data. -/
example : RegisterSessionData.cls.runLen 4 (RegisterSessionData.new, .buffer ⟨[1, 0, 2, 0], 0⟩) =
    (.ok (), (⟨1, 2⟩, .buffer ⟨[], 4⟩)) := rfl

end Eip
