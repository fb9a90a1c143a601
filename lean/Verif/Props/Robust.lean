import Verif.Lemmas.Robust
/-
C70, C74, C79, C80: short streams, length fields over histories, byte order, failed parses.
-/
namespace Eip
open Spec

/-! ### C70 -/

/-- C70 is false for every short input: headers, registration data and sequenced addresses are returned as if they
had been received. -/
theorem c70_violated (before cut : Bytes) (junk : UInt8) :
    (cut.length < 24 → ∀ d, ∃ s, EncapHeader.deserialize (d, .stream ⟨before ++ cut, before.length, true, junk⟩) = (.ok (), s)) ∧
    (cut.length < 4 → ∀ d, ∃ s,
      RegisterSessionData.deserialize (d, .stream ⟨before ++ cut, before.length, true, junk⟩) = (.ok (), s)) ∧
    (cut.length < 8 → ∀ d, ∃ s,
      SequencedAddressItem.deserialize (d, .stream ⟨before ++ cut, before.length, true, junk⟩) = (.ok (), s)) := by
  refine ⟨fun _ d => ?_, fun _ d => ?_, fun _ d => ?_⟩
  · obtain ⟨x, d', sr', e, _⟩ := EncapHeader.flags d ⟨before ++ cut, before.length, true, junk⟩
    exact ⟨_, e⟩
  · obtain ⟨x, d', sr', e, _⟩ := RegisterSessionData.flags d ⟨before ++ cut, before.length, true, junk⟩
    exact ⟨_, e⟩
  · obtain ⟨x, d', sr', e, _⟩ := SequencedAddressItem.flags d ⟨before ++ cut, before.length, true, junk⟩
    exact ⟨_, e⟩

/-- C70 is false for packets: the missing part of the payload is unknown memory. -/
theorem c70_violated_packet (d : EncapPacket) (h : EncapHeader) (before cut : Bytes) (junk : UInt8)
    (hcut : cut.length < h.length.toNat) :
    EncapPacket.deserialize (d, .stream ⟨before ++ (Spec.header h ++ cut), before.length, true, junk⟩) =
      (.ok (), (⟨h, some (SerializableBuffer.obj ⟨cut ++ List.replicate (h.length.toNat - cut.length) junk⟩)⟩,
        .stream ⟨before ++ (Spec.header h ++ cut), (before ++ (Spec.header h ++ cut)).length, false, junk⟩)) := by
  have hh := (ParsesAt.part (fun p : EncapPacket => p.header) (fun h p => { p with header := h }) d rfl
    (EncapHeader.parses d.header h before.length)).stream before cut junk rfl
  unfold EncapPacket.deserialize
  rw [Prog.bind_ok hh]
  have hg : ∀ (p : EncapPacket) (r : Reader), (getObj : Prog (EncapPacket × Reader) _) (p, r) = (.ok p, (p, r)) :=
    fun _ _ => rfl
  rw [Prog.bind_ok (hg _ _)]
  rw [if_pos (by show 0 < h.length.toNat; omega)]
  have hr : (readNewBuffer h.length.toNat : Prog (EncapPacket × Reader) _) (⟨h, d.payload⟩,
      .stream ⟨before ++ (Spec.header h ++ cut), before.length + (Spec.header h).length, true, junk⟩) =
      (.ok ⟨cut ++ List.replicate (h.length.toNat - cut.length) junk⟩, (⟨h, d.payload⟩,
        .stream ⟨before ++ (Spec.header h ++ cut), (before ++ (Spec.header h ++ cut)).length, false, junk⟩)) := by
    have e1 : (before ++ (Spec.header h ++ cut)).drop (before.length + (Spec.header h).length) = cut := by
      rw [← List.append_assoc, ← List.length_append, List.drop_left]
    have e2 : h.length.toNat ≠ SerializableBuffer.empty.data.length := by
      simp only [SerializableBuffer.empty, List.length_nil]; omega
    simp only [readNewBuffer, parseFresh, SerializableBuffer.deserializeLen, if_pos e2, StreamReader.readInto, e1,
      List.length_replicate, if_pos hcut, Bool.true_eq_false, if_false, List.drop_replicate]
  rw [Prog.bind_ok hr]
  rfl

/-- C70 is false for common packets: an empty stream makes the number of items indeterminate. -/
theorem c70_violated_cpf (d : CPFPacket) (before : Bytes) (junk : UInt8) :
    ∃ s, CPFPacket.deserialize (d, .stream ⟨before, before.length, true, junk⟩) = (.ub .indeterminate, s) := by
  have h : (readLocal16 : Prog (CPFPacket × Reader) UInt16) (⟨[]⟩, .stream ⟨before, before.length, true, junk⟩) =
      (.ub .indeterminate, (⟨[]⟩, .stream ⟨before, before.length, false, junk⟩)) := by
    simp [readLocal16, Prog.bind_def, Prog.andThen, onReader, Prog.zoom, Reader.readLocal, StreamReader.canRead,
      StreamReader.readInto]
  refine ⟨(⟨[]⟩, .stream ⟨before, before.length, false, junk⟩), ?_⟩
  unfold CPFPacket.deserialize
  have h0 : (modifyObj (fun p : CPFPacket => { p with items := [] }))
      (d, Reader.stream ⟨before, before.length, true, junk⟩) =
      (.ok (), (⟨[]⟩, .stream ⟨before, before.length, true, junk⟩)) := rfl
  rw [Prog.bind_ok h0, Prog.bind_ub h]

/-- C70 (partial). A short stream can be noticed afterwards: it is in a failed state exactly if bytes were missing.
Missing: the exception, which is never thrown. -/
theorem c70_short_stream_flagged_partial (sr : StreamReader) :
    (∀ d d' sr', EncapHeader.deserialize (d, .stream sr) = (.ok (), (d', .stream sr')) →
      (sr'.good = true ↔ (sr.good = true ∧ 24 ≤ (sr.data.drop sr.pos).length))) ∧
    (∀ d d' sr', RegisterSessionData.deserialize (d, .stream sr) = (.ok (), (d', .stream sr')) →
      (sr'.good = true ↔ (sr.good = true ∧ 4 ≤ (sr.data.drop sr.pos).length))) ∧
    (∀ d d' sr', SequencedAddressItem.deserialize (d, .stream sr) = (.ok (), (d', .stream sr')) →
      (sr'.good = true ↔ (sr.good = true ∧ 8 ≤ (sr.data.drop sr.pos).length))) := by
  have fin : ∀ {δ : Type} {p : Prog (δ × Reader) Unit} {n : Nat}, Flags p n → ∀ d d' sr',
      p (d, .stream sr) = (.ok (), (d', .stream sr')) →
      (sr'.good = true ↔ (sr.good = true ∧ n ≤ (sr.data.drop sr.pos).length)) := by
    intro δ p n hp d d' sr' e
    obtain ⟨x, d1, s1, e1, g, _⟩ := hp d sr
    rw [e] at e1
    simp only [Prod.mk.injEq, Reader.stream.injEq] at e1
    obtain ⟨_, _, rfl⟩ := e1
    exact g
  exact ⟨fin EncapHeader.flags, fin RegisterSessionData.flags, fin SequencedAddressItem.flags⟩

/-- Registration data cut after three bytes. -/
example : RegisterSessionData.deserialize (⟨1, 0⟩, .stream ⟨[1, 0, 7], 0, true, 0xEE⟩) =
    (.ok (), (⟨1, 7⟩, .stream ⟨[1, 0, 7], 3, false, 0xEE⟩)) := by decide

/-! ### C74 -/

/-- C74. Whatever happened to the packet before, failed parses included: after construction, `setPayload`,
`updateLength` or a parse that returns, the length field is the payload's length modulo 65536. -/
theorem c74_length_field_after_any_history (p0 : EncapPacket) (before : List PacketCall) (last : PacketCall)
    (h : last.returns (before.foldl PacketCall.run p0)) :
    LengthMatches ((before ++ [last]).foldl PacketCall.run p0) := by
  rw [List.foldl_append]
  simp only [List.foldl_cons, List.foldl_nil]
  generalize before.foldl PacketCall.run p0 = p at h
  cases last with
  | setPayload o => exact updateLength_matches _
  | updateLength => exact updateLength_matches _
  | parse input c =>
    simp only [PacketCall.returns, PacketCall.run] at h ⊢
    cases e : EncapPacket.deserialize (p, .buffer ⟨input, c⟩) with
    | mk res st =>
      obtain ⟨p', r'⟩ := st
      rw [e] at h
      simp only at h ⊢
      subst h
      obtain ⟨bs, hb, hl⟩ := parse_payload e
      exact rawData_matches hb hl
  | parseSized n input c =>
    simp only [PacketCall.returns, PacketCall.run] at h ⊢
    cases e : EncapPacket.deserializeSized n (p, .buffer ⟨input, c⟩) with
    | mk res st =>
      obtain ⟨p', r'⟩ := st
      rw [e] at h
      simp only at h ⊢
      subst h
      obtain ⟨bs, hb, hl⟩ := parseSized_payload e
      exact rawData_matches hb hl

/-- C74. Construction with a payload, and a parsed packet's payload: exactly the announced number of bytes, none if
that number is zero. -/
theorem c74_constructed_and_parsed (command : UInt16) (handle : UInt32) (o : Option Obj) (p p' : EncapPacket)
    (input : Bytes) (c : Nat) (r' : Reader) :
    LengthMatches (EncapPacket.withPayload command handle o) ∧
    (EncapPacket.deserialize (p, .buffer ⟨input, c⟩) = (.ok (), (p', r')) →
      (p'.header.length = 0 ∧ p'.payload = none) ∨
      ∃ bs, bs.length = p'.header.length.toNat ∧ bs ≠ [] ∧ p'.payload = some (SerializableBuffer.obj ⟨bs⟩)) := by
  refine ⟨updateLength_matches _, fun e => ?_⟩
  obtain ⟨bs, hb, hl⟩ := parse_payload e
  by_cases hne : bs = []
  · subst hne
    left
    refine ⟨UInt16.toNat_inj.mp (by simpa using hl.symm), by rw [hb, rawData, if_pos rfl]⟩
  · exact Or.inr ⟨bs, hl, hne, by rw [hb, rawData_of_ne hne]⟩

/-- A failed parse, then a payload of three bytes: the field is 3 again. -/
example : PacketCall.returns (PacketCall.run (EncapPacket.new 0 0) (.parse [0x6F, 0, 9, 0] 0))
    (.setPayload (some (SerializableBuffer.obj ⟨[1, 2, 3]⟩))) := trivial

/-! ### C79 -/

/-- C79 is false on big-endian hosts: they write the most significant byte first, for every value. -/
theorem c79_violated (n v : Nat) (w : StreamWriter) :
    Writer.writeOn true n v (.stream w) = (.ok (), .stream (appended w (le n v).reverse)) ∧
    ∃ u, (le 2 u).reverse ≠ le 2 u := by
  refine ⟨?_, 1, by decide⟩
  simp only [Writer.writeOn, hostBytes_big, Writer.writeBuffer, StreamWriter.writeBuffer_eq]

/-- C79 (partial: little-endian hosts). Integers are written least significant byte first, which is what the rest
of the model assumes of `write8`, `write16` and `write32`. Missing: big-endian hosts, for which it is false. -/
theorem c79_little_endian_partial (n v : Nat) (w : StreamWriter) :
    Writer.writeOn false n v (.stream w) = (.ok (), .stream (appended w (le n v))) ∧
    (∀ x : UInt8, Writer.write8 x = Writer.writeOn false 1 x.toNat) ∧
    (∀ x : UInt16, Writer.write16 x = Writer.writeOn false 2 x.toNat) ∧
    (∀ x : UInt32, Writer.write32 x = Writer.writeOn false 4 x.toNat) := by
  refine ⟨?_, fun x => ?_, fun x => ?_, fun x => ?_⟩
  · simp only [Writer.writeOn, hostBytes_little, Writer.writeBuffer, StreamWriter.writeBuffer_eq]
  · rw [Writer.write8, Writer.writeOn, hostBytes_little, le8_eq_le]
  · rw [Writer.write16, Writer.writeOn, hostBytes_little, le16_eq_le]
  · rw [Writer.write32, Writer.writeOn, hostBytes_little, le32_eq_le]

/-- C79 for reading. On a little-endian host the memory filled from the wire has the value the protocol means, for every
width. What a host writes it reads back; and a big-endian host reads exactly what a little-endian one reads from the
reversed bytes. -/
theorem c79_reading_partial (n v : Nat) (bs : Bytes) :
    hostValue false bs = value bs ∧
    (∀ be, hostValue be (hostBytes be n v) = v % 256 ^ n) ∧
    hostValue true bs = hostValue false bs.reverse := by
  have rev : ∀ bs : Bytes, hostValue true bs = hostValue false bs.reverse := by
    intro bs
    simp only [hostValue, if_true, Bool.false_eq_true, if_false, List.foldr_reverse]
    congr 1
    funext acc b
    omega
  have val : hostValue false bs = value bs := by
    simp only [hostValue, Bool.false_eq_true, if_false]
    induction bs with
    | nil => rfl
    | cons b bs ih => rw [List.foldr_cons, ih, value_cons]
  have lit : hostValue false (le n v) = v % 256 ^ n := by
    simp only [hostValue, Bool.false_eq_true, if_false]
    induction n generalizing v with
    | zero => simp [le, Nat.mod_one]
    | succ n ih =>
      rw [Spec.le_succ, List.foldr_cons, ih, UInt8.toNat_ofNat']
      rw [Nat.pow_succ 256 n, Nat.mul_comm (256 ^ n) 256, Nat.mod_mul]
      omega
  refine ⟨val, ?_, rev bs⟩
  rintro (_ | _)
  · rw [hostBytes_little]; exact lit
  · rw [hostBytes_big, rev, List.reverse_reverse]; exact lit

/-- The command code 0x6F as two bytes on both kinds of host. -/
example : hostBytes false 2 0x6F = [0x6F, 0] ∧ hostBytes true 2 0x6F = [0, 0x6F] := by decide

/-! ### C80 -/

/-- C80 is false for headers: every input of 2 to 23 bytes is rejected, but its command is already in the object. -/
theorem c80_violated (d : EncapHeader) (v : UInt16) (rest : Bytes) (c : Nat) (hr : rest.length < 22) :
    ∃ what d' r', EncapHeader.deserialize (d, .buffer ⟨le 2 v.toNat ++ rest, c⟩) = (.throw (lengthError what), (d', r')) ∧
      d'.command = v := by
  have h1 := (ParsesAt.member_enc Codec.u16_lawful c (fun h : EncapHeader => h.command)
    (fun v h => { h with command := v }) d v).buffer rest
  have eb : Codec.u16.enc v = le 2 v.toNat := by simp [Codec.u16, le16_eq_le]
  rw [eb] at h1
  have hk : (EncapHeader.deserialize (d, .buffer ⟨le 2 v.toNat ++ rest, c⟩)).2.1.command = v := by
    unfold EncapHeader.deserialize
    rw [Prog.bind_ok h1]
    refine Keeps.bind (f := fun h : EncapHeader => h.command) ?_ (fun _ => ?_) _
    · exact .member _ _ _ (fun _ _ => rfl)
    refine Keeps.bind ?_ (fun _ => ?_)
    · exact .member _ _ _ (fun _ _ => rfl)
    refine Keeps.bind ?_ (fun _ => ?_)
    · exact .member _ _ _ (fun _ _ => rfl)
    refine Keeps.bind ?_ (fun _ => ?_)
    · exact .member _ _ _ (fun _ _ => rfl)
    · exact .member _ _ _ (fun _ _ => rfl)
  rcases covers_header (le 2 v.toNat ++ rest) with ⟨cs, tail, ⟨h, rfl⟩, e⟩ | ⟨cs, m, ⟨h, rfl⟩, hm, e⟩
  · have := congrArg List.length e
    rw [List.length_append, List.length_append, le_length, header_length] at this
    omega
  · obtain ⟨what, d1, r1, e1⟩ := (EncapHeader.parses d h c).short _ m e hm
    rw [e1] at hk
    exact ⟨what, d1, _, e1, hk⟩

/-- C80 is false for common packets: the items are gone after any failed parse that did not read an item. -/
theorem c80_violated_cpf (d : CPFPacket) (input : Bytes) (c : Nat) (h : input.length < 2) :
    ∃ what r', CPFPacket.deserialize (d, .buffer ⟨input, c⟩) = (.throw (lengthError what), (⟨[]⟩, r')) := by
  have h0 : (modifyObj (fun p : CPFPacket => { p with items := [] })) (d, Reader.buffer ⟨input, c⟩) =
      (.ok (), (⟨[]⟩, .buffer ⟨input, c⟩)) := rfl
  have h1 : (readLocal16 : Prog (CPFPacket × Reader) UInt16) (⟨[]⟩, .buffer ⟨input, c⟩) =
      (.throw (lengthError "Buffer too small to deserialize value"), (⟨[]⟩, .buffer ⟨input, c⟩)) := by
    simp [readLocal16, Prog.bind_def, Prog.andThen, onReader, Prog.zoom, Reader.readLocal, BufferReader.readBuffer, h]
  refine ⟨"Buffer too small to deserialize value", .buffer ⟨input, c⟩, ?_⟩
  unfold CPFPacket.deserialize
  rw [Prog.bind_ok h0, Prog.bind_throw h1]

/-- C80 (partial). What does survive a failed parse: primitives, raw buffers, headers when not even the command was
there, and the payload of a packet. Missing: the header of a packet, the items of a common packet and the other
structured objects, for which it is false. -/
theorem c80_unchanged_partial (input : Bytes) (c : Nat) (e : Exn) (r' : Reader) :
    (∀ {τ : Type} (cd : Codec τ) (d d' : SerializablePrimitive τ),
      SerializablePrimitive.deserialize cd (d, .buffer ⟨input, c⟩) = (.throw e, (d', r')) → d' = d) ∧
    (∀ d d', SerializableBuffer.deserialize (d, .buffer ⟨input, c⟩) = (.throw e, (d', r')) → d' = d) ∧
    (∀ n d d', SerializableBuffer.deserializeLen n (d, .buffer ⟨input, c⟩) = (.throw e, (d', r')) → d' = d) ∧
    (input.length < 2 → ∀ d d',
      EncapHeader.deserialize (d, .buffer ⟨input, c⟩) = (.throw e, (d', r')) → d' = d) ∧
    (∀ d d', EncapPacket.deserialize (d, .buffer ⟨input, c⟩) = (.throw e, (d', r')) → d'.payload = d.payload) := by
  refine ⟨fun cd d d' h => ?_, fun d d' h => ?_, fun n d d' h => ?_, fun hs d d' h => ?_, fun d d' h => ?_⟩
  · exact KeepsOnThrow.member cd _ _ _ _ _ h
  · refine KeepsOnThrow.bind (f := fun x => x) ?_ (fun _ => ?_) _ _ _ h
    · exact fun _ => rfl
    · exact .bind (.onReader _) fun _ => .modifyObj _
  · exact KeepsOnThrow.rawLen n _ _ _ h
  · have h1 : readMember .u16 (fun h : EncapHeader => h.command) (fun v h => { h with command := v })
        (d, .buffer ⟨input, c⟩) =
        (.throw (lengthError "Buffer too small to deserialize value"), (d, .buffer ⟨input, c⟩)) := by
      simp only [readMember, Prog.bind_def, Prog.andThen, getObj, onReader, Prog.zoom, Reader.readInto,
        BufferReader.readBuffer, Codec.u16, le16_length]
      rw [if_pos hs]
    unfold EncapHeader.deserialize at h
    rw [Prog.bind_throw h1] at h
    simp only [Prod.mk.injEq] at h
    exact h.2.1.symm
  · refine KeepsOnThrow.bind (f := fun p : EncapPacket => p.payload) ?_ (fun _ => ?_) _ _ _ h
    · exact fun s => rfl
    refine .bind (fun _ => rfl) (fun _ => .ite (.bind ?_ fun _ => .modifyObj _) (.modifyObj _))
    exact .fresh _ _

/-- A header cut after the command, and one cut before. -/
example : ∃ s, EncapHeader.deserialize (EncapHeader.new 0 0, .buffer ⟨[0x65, 0, 1], 0⟩) =
      (.throw (lengthError "Buffer too small to deserialize value"), s) ∧ s.1.command = 0x65 := ⟨_, rfl, rfl⟩



end Eip
