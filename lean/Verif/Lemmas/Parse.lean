import Verif.Lemmas.Write
/-
What each class parses, in terms of the wire format.
-/
namespace Eip
open Spec

/-! ### Encapsulation -/

theorem EncapHeader.parses (d h : EncapHeader) : Parses EncapHeader.deserialize d (Spec.header h) () h := by
  intro c
  refine ParsesAt.congr_bytes (ParsesAt.bind (ParsesAt.member_enc Codec.u16_lawful _ _ _ _ h.command)
    (ParsesAt.bind (ParsesAt.member_enc Codec.u16_lawful _ _ _ _ h.length)
    (ParsesAt.bind (ParsesAt.member_enc Codec.u32_lawful _ _ _ _ h.sessionHandle)
    (ParsesAt.bind (ParsesAt.member_enc Codec.u32_lawful _ _ _ _ h.status)
    (ParsesAt.bind (ParsesAt.member_enc Codec.context_lawful _ _ _ _ h.context)
    (ParsesAt.member_enc Codec.u32_lawful _ _ _ _ h.options)))))) ?_
  simp [Spec.header, Codec.context, Codec.pair, Codec.u16, Codec.u32, le16_eq_le, le32_eq_le]

/-- The reading of `n` bytes as optional raw data. -/
theorem EncapPacket.parses (d : EncapPacket) (h : EncapHeader) {payload : Bytes}
    (hl : payload.length = h.length.toNat) :
    Parses EncapPacket.deserialize d (Spec.header h ++ payload) () ⟨h, rawData payload⟩ := by
  intro c
  refine ParsesAt.bind (ParsesAt.part _ _ _ rfl (EncapHeader.parses d.header h c)) ?_
  refine ParsesAt.bind0 (ParsesAt.getObj _ _) ?_
  by_cases hp : payload = []
  · subst hp
    refine ParsesAt.ite_neg (by simp only [List.length_nil] at hl; simp only; omega) ?_
    exact ParsesAt.modifyObj _ _ _
  · have : 0 < payload.length := List.length_pos_iff.mpr hp
    refine ParsesAt.ite_pos (by simp only; omega) ?_
    rw [← hl]
    refine ParsesAt.congr_bytes (ParsesAt.bind (ParsesAt.newBuffer _ _ payload) (ParsesAt.modifyObj _ _ _)) (by simp) |>.congr_obj ?_
    simp [rawData, hp]

theorem EncapPacket.parsesSized (d : EncapPacket) (h : EncapHeader) {payload : Bytes}
    (hl : payload.length = h.length.toNat) :
    Parses (EncapPacket.deserializeSized (24 + payload.length)) d (Spec.header h ++ payload) ()
      ⟨h, rawData payload⟩ := by
  intro c
  refine ParsesAt.bind0 (ParsesAt.getObj _ _) ?_
  refine ParsesAt.ite_neg (by simp only [EncapHeader.getLength]; omega) ?_
  refine ParsesAt.bind (ParsesAt.part _ _ _ rfl (EncapHeader.parses d.header h c)) ?_
  refine ParsesAt.bind0 (ParsesAt.getObj _ _) ?_
  refine ParsesAt.ite_neg (by simp only [EncapHeader.getLength]; omega) ?_
  by_cases hp : payload = []
  · subst hp
    refine ParsesAt.ite_neg (by simp only [List.length_nil] at hl; simp only; omega) ?_
    exact ParsesAt.modifyObj _ _ _
  · have : 0 < payload.length := List.length_pos_iff.mpr hp
    refine ParsesAt.ite_pos (by simp only; omega) ?_
    rw [← hl]
    refine ParsesAt.bind0 (ParsesAt.modifyObj _ _ _) ?_
    refine ParsesAt.congr_bytes (ParsesAt.bind (ParsesAt.newBuffer _ _ payload) (ParsesAt.modifyObj _ _ _)) (by simp) |>.congr_obj ?_
    simp [rawData, hp]

/-! ### CPF -/

theorem CPFItem.parsesData (d : CPFItem) {payload : Bytes} (n : UInt16) (hl : payload.length = n.toNat) :
    Parses (CPFItem.deserializeData n) d payload () ⟨d.itemType, rawData payload⟩ := by
  intro c
  by_cases hp : payload = []
  · subst hp
    refine ParsesAt.ite_neg (by simp only [List.length_nil] at hl; omega) ?_
    exact ParsesAt.modifyObj _ _ _
  · have : 0 < payload.length := List.length_pos_iff.mpr hp
    refine ParsesAt.ite_pos (by omega) ?_
    rw [← hl]
    refine ParsesAt.bind0 (ParsesAt.modifyObj _ _ _) ?_
    refine ParsesAt.congr_bytes (ParsesAt.bind (ParsesAt.newBuffer _ _ payload) (ParsesAt.modifyObj _ _ _)) (by simp) |>.congr_obj ?_
    simp [rawData, hp]

theorem toNat_ofNat16 {n : Nat} (h : n < 65536) : (UInt16.ofNat n).toNat = n := by
  rw [UInt16.toNat_ofNat', Nat.mod_eq_of_lt h]

theorem CPFItem.parses (d : CPFItem) (t : UInt16) {payload : Bytes} (hl : payload.length < 65536) :
    Parses CPFItem.deserialize d (item t payload) () ⟨t, rawData payload⟩ := by
  intro c
  refine ParsesAt.congr_bytes (ParsesAt.bind (ParsesAt.member_enc Codec.u16_lawful _ _ _ _ t)
    (ParsesAt.bind (ParsesAt.local16 _ _ (UInt16.ofNat payload.length))
    (CPFItem.parsesData _ _ (toNat_ofNat16 hl).symm _))) ?_
  simp only [item, Codec.u16, le16_eq_le t, le16_ofNat, List.append_assoc]

theorem CPFItem.parsesSized (d : CPFItem) (t : UInt16) {payload : Bytes} (hl : payload.length < 65536)
    (n : Nat) (hn : 4 + payload.length ≤ n) :
    Parses (CPFItem.deserializeSized n) d (item t payload) () ⟨t, rawData payload⟩ := by
  intro c
  refine ParsesAt.ite_neg (by omega) ?_
  refine ParsesAt.congr_bytes (ParsesAt.bind (ParsesAt.member_enc Codec.u16_lawful _ _ _ _ t)
    (ParsesAt.bind (ParsesAt.local16 _ _ (UInt16.ofNat payload.length))
    (ParsesAt.ite_neg (by rw [toNat_ofNat16 hl]; omega)
    (CPFItem.parsesData _ _ (toNat_ofNat16 hl).symm _)))) ?_
  simp only [item, Codec.u16, le16_eq_le t, le16_ofNat, List.append_assoc]

/-- The items a parser makes of the given types and payloads. -/
def parsedItems (l : List (UInt16 × Bytes)) : List CPFItem := l.map (fun i => ⟨i.1, rawData i.2⟩)

theorem CPFPacket.parsesItems (l : List (UInt16 × Bytes)) (hl : ∀ i ∈ l, i.2.length < 65536) (d : CPFPacket) :
    Parses (CPFPacket.deserializeItems l.length) d ((l.map (fun i => item i.1 i.2)).flatten) ()
      ⟨d.items ++ parsedItems l⟩ := by
  induction l generalizing d with
  | nil =>
    intro c
    have := ParsesAt.pure c () d
    simpa [CPFPacket.deserializeItems, parsedItems] using this
  | cons i l ih =>
    intro c
    have h1 := CPFItem.parses CPFItem.null i.1 (hl i List.mem_cons_self) c
    have h2 := ih (fun j hj => hl j (List.mem_cons_of_mem _ hj))
      (⟨d.items ++ [⟨i.1, rawData i.2⟩]⟩ : CPFPacket)
    have h3 : ParsesAt c (CPFPacket.deserializeItems (l.length + 1)) d _ () _ :=
      ParsesAt.bind (ParsesAt.fresh h1 d) (ParsesAt.bind0 (ParsesAt.modifyObj _ _ _) (h2 _))
    refine h3.congr_obj ?_
    simp [parsedItems]

theorem CPFPacket.parses (l : List (UInt16 × Bytes)) (hc : l.length < 65536) (hl : ∀ i ∈ l, i.2.length < 65536)
    (d : CPFPacket) : Parses CPFPacket.deserialize d (cpf l) () ⟨parsedItems l⟩ := by
  intro c
  have h := CPFPacket.parsesItems l hl ⟨[]⟩
  refine ParsesAt.bind0 (ParsesAt.modifyObj _ _ _) ?_
  refine ParsesAt.congr_bytes (ParsesAt.bind (ParsesAt.local16 _ _ (UInt16.ofNat l.length))
    (y := ()) (d2 := (⟨parsedItems l⟩ : CPFPacket)) (cs := (l.map (fun i => item i.1 i.2)).flatten) ?_) ?_
  · rw [toNat_ofNat16 hc]
    have := h (c + (le16 (UInt16.ofNat l.length)).length)
    simpa using this
  · simp [cpf, le16_ofNat]

/-! ### Fixed size data -/

theorem RegisterSessionData.parses (d : RegisterSessionData) (v o : UInt16) :
    Parses RegisterSessionData.deserialize d (register v o) () ⟨v, o⟩ := by
  intro c
  refine ParsesAt.congr_bytes (ParsesAt.bind (ParsesAt.member_enc Codec.u16_lawful _ _ _ _ v)
    (ParsesAt.member_enc Codec.u16_lawful _ _ _ _ o)) ?_
  simp [register, Codec.u16, le16_eq_le]

theorem SequencedAddressItem.parses (d : SequencedAddressItem) (v o : UInt32) :
    Parses SequencedAddressItem.deserialize d (seqAddress v o) () ⟨v, o⟩ := by
  intro c
  refine ParsesAt.congr_bytes (ParsesAt.bind (ParsesAt.member_enc Codec.u32_lawful _ _ _ _ v)
    (ParsesAt.member_enc Codec.u32_lawful _ _ _ _ o)) ?_
  simp [seqAddress, Codec.u32, le32_eq_le]

theorem resize_length (n : Nat) (s : Bytes) : (IdentityItemData.resize n s).length = n := by
  simp [IdentityItemData.resize]; omega

theorem IdentityItemData.parses (d x : IdentityItemData) (h : x.productName.length < 256) :
    Parses IdentityItemData.deserialize d (identity x x.productName) () x := by
  intro c
  have hn : (UInt8.ofNat x.productName.length).toNat = x.productName.length := by
    rw [UInt8.toNat_ofNat', Nat.mod_eq_of_lt h]
  refine ParsesAt.congr_bytes (ParsesAt.bind (ParsesAt.member_enc Codec.u16_lawful _ _ _ _ x.encapProtocolVersion)
    (ParsesAt.bind (ParsesAt.member_enc Codec.sockaddr_lawful _ _ _ _ x.sockaddr)
    (ParsesAt.bind (ParsesAt.member_enc Codec.u16_lawful _ _ _ _ x.vendorId)
    (ParsesAt.bind (ParsesAt.member_enc Codec.u16_lawful _ _ _ _ x.deviceType)
    (ParsesAt.bind (ParsesAt.member_enc Codec.u16_lawful _ _ _ _ x.productCode)
    (ParsesAt.bind (ParsesAt.member_enc Codec.revision_lawful _ _ _ _ x.revision)
    (ParsesAt.bind (ParsesAt.member_enc Codec.u16_lawful _ _ _ _ x.status)
    (ParsesAt.bind (ParsesAt.member_enc Codec.u32_lawful _ _ _ _ x.serialNumber)
    (ParsesAt.bind (ParsesAt.local8 _ _ (UInt8.ofNat x.productName.length))
    (ParsesAt.bind0 (ParsesAt.modifyObj _ _ _)
    (ParsesAt.bind0 (ParsesAt.getObj _ _)
    (ParsesAt.bind (ParsesAt.readInto _ _ _ x.productName (by rw [resize_length, hn]))
    (ParsesAt.bind0 (ParsesAt.modifyObj _ _ _)
    (ParsesAt.member_enc Codec.u8_lawful _ _ _ _ x.state)))))))))))))) ?_
  simp only [identity, sockaddr_enc, revision_enc, Codec.u16, Codec.u32, Codec.u8, le16_eq_le, le32_eq_le,
    le8_ofNat, le8_eq x.state, List.append_assoc]

/-! ### Replies -/

theorem SerializablePrimitive.parses {τ : Type} {cd : Codec τ} {n : Nat} (law : cd.Lawful n)
    (d : SerializablePrimitive τ) (v : τ) : Parses (SerializablePrimitive.deserialize cd) d (cd.enc v) () ⟨v⟩ :=
  fun c => ParsesAt.member_enc law c _ _ d v

theorem ForwardOpenSuccess.parses (d : ForwardOpenSuccess) (oToT tToO : UInt32) (sn vendor : UInt16)
    (originator oApi tApi : UInt32) (k reserved : UInt8) {app : Bytes} (ha : app.length = 2 * k.toNat) :
    Parses ForwardOpenSuccess.deserialize d
      (forwardOpenReply oToT tToO sn vendor originator oApi tApi k reserved app) ()
      ⟨oToT, tToO, sn, vendor, originator, oApi, tApi, rawData app⟩ := by
  intro c
  refine ParsesAt.congr_bytes (ParsesAt.bind (ParsesAt.member_enc Codec.u32_lawful _ _ _ _ oToT)
    (ParsesAt.bind (ParsesAt.member_enc Codec.u32_lawful _ _ _ _ tToO)
    (ParsesAt.bind (ParsesAt.member_enc Codec.u16_lawful _ _ _ _ sn)
    (ParsesAt.bind (ParsesAt.member_enc Codec.u16_lawful _ _ _ _ vendor)
    (ParsesAt.bind (ParsesAt.member_enc Codec.u32_lawful _ _ _ _ originator)
    (ParsesAt.bind (ParsesAt.member_enc Codec.u32_lawful _ _ _ _ oApi)
    (ParsesAt.bind (ParsesAt.member_enc Codec.u32_lawful _ _ _ _ tApi)
    (ParsesAt.bind (ParsesAt.local8 _ _ k)
    (ParsesAt.bind (ParsesAt.skip _ _ [reserved])
    (cs := app) (y := ()) 
      (d2 := (⟨oToT, tToO, sn, vendor, originator, oApi, tApi, rawData app⟩ : ForwardOpenSuccess)) ?_))))))))) ?_
  · by_cases hp : app = []
    · subst hp
      refine ParsesAt.ite_neg (by simp only [List.length_nil] at ha; omega) ?_
      exact ParsesAt.modifyObj _ _ _
    · have : 0 < app.length := List.length_pos_iff.mpr hp
      refine ParsesAt.ite_pos (by omega) ?_
      rw [Nat.mul_comm, ← ha]
      refine ParsesAt.congr_bytes (ParsesAt.bind (ParsesAt.newBuffer _ _ app) (ParsesAt.modifyObj _ _ _)) (by simp) |>.congr_obj ?_
      simp [rawData, hp]
  · simp [forwardOpenReply, Codec.u16, Codec.u32, le16_eq_le, le32_eq_le, le8_eq]

theorem ForwardCloseSuccess.parses (d : ForwardCloseSuccess) (sn vendor : UInt16)
    (originator : UInt32) (k reserved : UInt8) {app : Bytes} (ha : app.length = 2 * k.toNat) :
    Parses ForwardCloseSuccess.deserialize d
      (forwardCloseReply sn vendor originator k reserved app) ()
      ⟨sn, vendor, originator, rawData app⟩ := by
  intro c
  refine ParsesAt.congr_bytes (
    (ParsesAt.bind (ParsesAt.member_enc Codec.u16_lawful _ _ _ _ sn)
    (ParsesAt.bind (ParsesAt.member_enc Codec.u16_lawful _ _ _ _ vendor)
    (ParsesAt.bind (ParsesAt.member_enc Codec.u32_lawful _ _ _ _ originator)
    (ParsesAt.bind (ParsesAt.local8 _ _ k)
    (ParsesAt.bind (ParsesAt.skip _ _ [reserved])
    (cs := app) (y := ()) 
      (d2 := (⟨sn, vendor, originator, rawData app⟩ : ForwardCloseSuccess)) ?_)))))) ?_
  · by_cases hp : app = []
    · subst hp
      refine ParsesAt.ite_neg (by simp only [List.length_nil] at ha; omega) ?_
      exact ParsesAt.modifyObj _ _ _
    · have : 0 < app.length := List.length_pos_iff.mpr hp
      refine ParsesAt.ite_pos (by omega) ?_
      rw [Nat.mul_comm, ← ha]
      refine ParsesAt.congr_bytes (ParsesAt.bind (ParsesAt.newBuffer _ _ app) (ParsesAt.modifyObj _ _ _)) (by simp) |>.congr_obj ?_
      simp [rawData, hp]
  · simp [forwardCloseReply, Codec.u16, Codec.u32, le16_eq_le, le32_eq_le, le8_eq]

end Eip
