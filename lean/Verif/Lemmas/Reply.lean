import Verif.Lemmas.Covers
/-
Message router responses and RR data responses.
-/
namespace Eip
open Spec

theorem bmod32 (n : Int) (h0 : 0 ≤ n) (h : n < 2147483648) : Int.bmod n 4294967296 = n := by
  apply Int.bmod_eq_of_le_mul_two <;> omega

theorem pow32 : (2 ^ 32 : Nat) = 4294967296 := by decide
theorem pow64 : (2 ^ 64 : Nat) = 18446744073709551616 := by decide

theorem sizeToInt_small {n : Nat} (h : n < 2147483648) : sizeToInt n = (n : Int) := by
  unfold sizeToInt
  rw [pow32]
  exact bmod32 n (by omega) (by omega)

theorem sizeSub_of_le {a b : Nat} (h : b ≤ a) (ha : a < 18446744073709551616) : sizeSub a b = a - b := by
  unfold sizeSub
  rw [pow64]
  omega

theorem MessageRouterResponse.parsesData {δ : Type} (c : Nat) (d : δ) (bs : Bytes) :
    ParsesAt c (MessageRouterResponse.readData (bs.length : Int)) d bs (rawData bs) d := by
  by_cases hp : bs = []
  · subst hp
    exact ParsesAt.ite_neg (by simp) (ParsesAt.pure _ _ _)
  · have : 0 < bs.length := List.length_pos_iff.mpr hp
    refine ParsesAt.ite_pos (by omega) ?_
    have := ParsesAt.bind (ParsesAt.newBuffer c d bs) (f := fun sb => Pure.pure (some sb.obj))
      (ParsesAt.pure _ _ _)
    rw [List.append_nil] at this
    have e : rawData bs = some (SerializableBuffer.obj ⟨bs⟩) := by simp [rawData, hp]
    rw [e]
    exact this

/-- Reading the number of bytes delivered so far. -/
theorem ParsesAt.count {δ : Type} (c : Nat) (d : δ) :
    ParsesAt c (fun s => (.ok s.2.getByteCount, s) : Prog (δ × Reader) Nat) d [] c d where
  buffer tail := by simp [Reader.getByteCount, BufferReader.getByteCount]
  short cut missing h hm := by
    exact absurd (List.append_eq_nil_iff.mp h.symm).2 hm
  stream before tail junk hb := by simp [Reader.getByteCount, StreamReader.getByteCount]

theorem mrReply_length (s r st k : UInt8) (a d : Bytes) :
    (mrReply s r st k a d).length = 4 + a.length + d.length := by
  simp [mrReply]; omega

/-- A message router response parsed by a reader that has delivered nothing yet. -/
theorem MessageRouterResponse.parses (m : MessageRouterResponse) (s r st k : UInt8) {a data : Bytes}
    (ha : a.length = 2 * k.toNat) (hd : data.length < 2147483648) :
    ParsesAt 0 (MessageRouterResponse.deserializeSized (mrReply s r st k a data).length) m
      (mrReply s r st k a data) () ⟨s, st, rawData a, rawData data⟩ := by
  have hk := k.toNat_lt
  have e1 : sizeToInt (2 * k.toNat) = (a.length : Int) := by
    rw [ha, sizeToInt_small (by omega)]
  refine ParsesAt.congr_bytes (ParsesAt.bind (ParsesAt.member_enc Codec.u8_lawful _ _ _ _ s)
    (ParsesAt.bind (ParsesAt.member_enc Codec.u8_lawful _ _ _ _ r)
    (ParsesAt.bind (ParsesAt.member_enc Codec.u8_lawful _ _ _ _ st)
    (ParsesAt.bind (ParsesAt.local8 _ _ k)
    (ParsesAt.bind (bs := a) (x := rawData a) (d1 := (⟨s, st, m.additionalStatus, m.responseData⟩ : MessageRouterResponse))
      (cs := data) (y := ()) (d2 := (⟨s, st, rawData a, rawData data⟩ : MessageRouterResponse)) ?_ ?_))))) ?_
  · rw [e1]
    exact MessageRouterResponse.parsesData _ _ _
  · refine ParsesAt.bind0 (ParsesAt.modifyObj _ _ _) (ParsesAt.bind0 (ParsesAt.count _ _) ?_)
    have e2 : sizeToInt (sizeSub (mrReply s r st k a data).length (0 + (Codec.u8.enc s).length +
        (Codec.u8.enc r).length + (Codec.u8.enc st).length + (le8 k).length + a.length)) = (data.length : Int) := by
      rw [mrReply_length]
      simp only [Codec.u8, le8_length]
      rw [sizeSub_of_le (by omega) (by omega), sizeToInt_small (by omega)]
      omega
    rw [e2]
    have := ParsesAt.bind (MessageRouterResponse.parsesData (0 + (Codec.u8.enc s).length +
        (Codec.u8.enc r).length + (Codec.u8.enc st).length + (le8 k).length + a.length)
        (⟨s, st, rawData a, m.responseData⟩ : MessageRouterResponse) data)
      (f := fun d => modifyObj (fun r => { r with responseData := d })) (ParsesAt.modifyObj _ _ _)
    rw [List.append_nil] at this
    exact this
  · simp [mrReply, Codec.u8, le8_eq]

theorem lt_2_31 {n : Nat} (h : n < 65536) : n < 2147483648 := Nat.lt_of_lt_of_le h (by decide)

theorem mrReply_data_lt {s r st k : UInt8} {a data : Bytes} (hl : (mrReply s r st k a data).length < 65536) :
    data.length < 2147483648 := by
  rw [mrReply_length] at hl
  exact lt_2_31 (by omega)

theorem rawData_of_ne {bs : Bytes} (h : bs ≠ []) : rawData bs = some (SerializableBuffer.obj ⟨bs⟩) := if_neg h

theorem RRDataResponse.setData_eq (d : RRDataResponse) (t : UInt16) {body : Bytes} (hne : body ≠ []) :
    RRDataResponse.setData ⟨t, rawData body⟩ d =
      match MessageRouterResponse.deserializeSized body.length (d.mr, .buffer ⟨body, 0⟩) with
      | (r, (m, _)) => (r, { d with mr := m }) := by
  rw [rawData_of_ne hne]
  rfl

/-- What `RRDataResponse` takes out of the data item. -/
theorem RRDataResponse.setData_ok (d : RRDataResponse) (t : UInt16) (s r st k : UInt8) {a data : Bytes}
    (ha : a.length = 2 * k.toNat) (hl : (mrReply s r st k a data).length < 65536) :
    RRDataResponse.setData ⟨t, rawData (mrReply s r st k a data)⟩ d =
      (.ok (), { d with mr := ⟨s, st, rawData a, rawData data⟩ }) := by
  have h := (MessageRouterResponse.parses d.mr s r st k ha (mrReply_data_lt hl)).buffer []
  have hne : mrReply s r st k a data ≠ [] := by simp [mrReply]
  rw [List.append_nil] at h
  rw [RRDataResponse.setData_eq d t hne, h]

theorem RRDataResponse.setData_short (d : RRDataResponse) (t : UInt16) (body : Bytes) (hne : body ≠ [])
    (hs : ∀ (s r st k : UInt8) (a data : Bytes), a.length = 2 * k.toNat → body ≠ mrReply s r st k a data) :
    ∃ what d', RRDataResponse.setData ⟨t, rawData body⟩ d = (.throw (lengthError what), d') := by
  rcases covers_mrReply body with ⟨cs, tail, ⟨s, r, st, k, a, ha, rfl⟩, e⟩ | ⟨cs, m, ⟨s, r, st, k, a, ha, rfl⟩, hm, e⟩
  · exact absurd (by rw [e]; simp [mrReply]) (hs s r st k a tail ha)
  · -- the short prefix makes the fixed part fail, whatever the length argument
    have key : ∀ n, ∃ what m' r', MessageRouterResponse.deserializeSized n (d.mr, .buffer ⟨body, 0⟩)
        = (.throw (lengthError what), (m', .buffer r')) := by
      intro n
      have hk := k.toNat_lt
      have e1 : sizeToInt (2 * k.toNat) = (a.length : Int) := by
        rw [ha, sizeToInt_small (by omega)]
      have e3 : mrReply s r st k a [] = Codec.u8.enc s ++ (Codec.u8.enc r ++ (Codec.u8.enc st ++ (le8 k ++ a))) := by
        simp [mrReply, Codec.u8, le8_eq]
      let rest : Option Obj → Prog (MessageRouterResponse × Reader) Unit := fun x => do
        modifyObj (fun r => { r with additionalStatus := x })
        let count ← (fun s => (.ok s.2.getByteCount, s))
        let d ← MessageRouterResponse.readData (sizeToInt (sizeSub n count))
        modifyObj (fun r => { r with responseData := d })
      let front : Prog (MessageRouterResponse × Reader) (Option Obj) := do
        readMember .u8 (·.service) (fun v r => { r with service := v })
        readMember .u8 (·.generalStatus) (fun v r => { r with generalStatus := v })
        readMember .u8 (·.generalStatus) (fun v r => { r with generalStatus := v })
        let additionalStatusLength ← readLocal8
        MessageRouterResponse.readData (sizeToInt (2 * additionalStatusLength.toNat))
      have split : MessageRouterResponse.deserializeSized n = front >>= rest := by
        simp only [front, rest, MessageRouterResponse.deserializeSized, Prog.bind_assoc]
      have hf : ParsesAt 0 front d.mr (mrReply s r st k a []) (rawData a)
          ⟨s, st, d.mr.additionalStatus, d.mr.responseData⟩ := by
        refine ParsesAt.congr_bytes (ParsesAt.bind (ParsesAt.member_enc Codec.u8_lawful _ _ _ _ s)
          (ParsesAt.bind (ParsesAt.member_enc Codec.u8_lawful _ _ _ _ r)
          (ParsesAt.bind (ParsesAt.member_enc Codec.u8_lawful _ _ _ _ st)
          (ParsesAt.bind (ParsesAt.local8 _ _ k)
          (cs := a) (y := rawData a) 
            (d2 := (⟨s, st, d.mr.additionalStatus, d.mr.responseData⟩ : MessageRouterResponse)) ?_)))) e3.symm
        rw [e1]
        exact MessageRouterResponse.parsesData _ _ _
      obtain ⟨what, m', r', e'⟩ := hf.short body m e hm
      refine ⟨what, m', r', ?_⟩
      rw [split]
      exact Prog.bind_throw e'
    obtain ⟨what, m', r', e'⟩ := key body.length
    refine ⟨what, { d with mr := m' }, ?_⟩
    rw [RRDataResponse.setData_eq d t hne, e']

theorem RRDataResponse.setData_empty (d : RRDataResponse) (t : UInt16) :
    RRDataResponse.setData ⟨t, rawData []⟩ d = (.ub .nullDeref, d) := by
  simp [RRDataResponse.setData, Prog.zoom, CPFItem.getDataAs, rawData, Prog.undef]

/-! ### RR data -/

/-- The verdict of `RRData::deserialize` on the items, and the contents of the data item. -/
def rrCheck (l : List (UInt16 × Bytes)) : Except String Bytes :=
  match l with
  | (t0, p0) :: (t1, p1) :: _ =>
    if t0 ≠ 0x0000 then .error "Address other than null in RR Data"
    else if p0 ≠ [] then .error "Data length greater than zero in null address type"
    else if t1 ≠ 0x00B2 then .error "Unexpected data type in RR Data"
    else .ok p1
  | _ => .error "Not enough items in RR Data"

theorem rrCheck_ok {l : List (UInt16 × Bytes)} {body : Bytes} :
    rrCheck l = .ok body ↔ ∃ more, l = (0x0000, []) :: (0x00B2, body) :: more := by
  constructor
  · intro h
    match l, h with
    | (t0, p0) :: (t1, p1) :: more, h =>
      simp only [rrCheck] at h
      by_cases h0 : t0 = 0x0000
      · by_cases h1 : p0 = []
        · by_cases h2 : t1 = 0x00B2
          · simp [h0, h1, h2] at h
            exact ⟨more, by rw [h0, h1, h2, h]⟩
          · simp [h0, h1, h2] at h
        · simp [h0, h1] at h
      · simp [h0] at h
    | [(_, _)], h => simp [rrCheck] at h
    | [], h => simp [rrCheck] at h
  · rintro ⟨more, rfl⟩
    simp [rrCheck]

/-- The bytes of RR data with arbitrary items. -/
def rrBytes (handle : UInt32) (timeout : UInt16) (l : List (UInt16 × Bytes)) : Bytes :=
  le 4 handle.toNat ++ le 2 timeout.toNat ++ cpf l

theorem covers_rr : Covers (fun cs => ∃ handle timeout l, CpfOk l ∧ cs = rrBytes handle timeout l) := by
  have := (Covers.fixed 6).seq (T := fun a b => ∃ handle timeout l, CpfOk l ∧ a ++ b = rrBytes handle timeout l) (by
    intro a h
    obtain ⟨x, y, rfl, hx, hy⟩ := split_length 4 2 h
    obtain ⟨v, rfl⟩ := exists_le32 x hx
    obtain ⟨w, rfl⟩ := exists_le16 y hy
    refine covers_cpf.imp ?_
    rintro b ⟨l, hl, rfl⟩
    exact ⟨v, w, l, hl, rfl⟩)
  refine this.imp ?_
  rintro cs ⟨a, b, _, ⟨v, w, l, hl, e⟩, rfl⟩
  exact ⟨v, w, l, hl, e⟩

section
variable {δ : Type} (getBase : δ → RRData) (setBase : RRData → δ → δ)

/-- The reading part of `RRData::deserialize`. -/
def rrFront : Prog (δ × Reader) CPFPacket := do
  onPart getBase setBase (readMember .u32 (·.interfaceHandle) (fun v r => { r with interfaceHandle := v }))
  onPart getBase setBase (readMember .u16 (·.timeout) (fun v r => { r with timeout := v }))
  RRData.parseCPF

/-- The checking part of `RRData::deserialize`. -/
def rrRest (setData : CPFItem → Prog δ Unit) (pkt : CPFPacket) : Prog (δ × Reader) Unit :=
  if pkt.getItemCount.toNat < 2 then
    Prog.raise (logicError "Not enough items in RR Data")
  else
    match pkt.items[0]?, pkt.items[1]? with
    | some i0, some i1 =>
      if i0.itemType ≠ itemNull then Prog.raise (logicError "Address other than null in RR Data")
      else if i0.getDataLength ≠ 0 then
        Prog.raise (logicError "Data length greater than zero in null address type")
      else if i1.itemType ≠ itemUnconnectedMessage then
        Prog.raise (logicError "Unexpected data type in RR Data")
      else Prog.zoom (·.1) (fun d s => (d, s.2)) (setData i1)
    | _, _ => Prog.raise (logicError "vector::_M_range_check")

theorem RRData.deserialize_split (setData : CPFItem → Prog δ Unit) :
    RRData.deserialize getBase setBase setData = rrFront getBase setBase >>= rrRest setData := by
  simp only [RRData.deserialize, rrFront, Prog.bind_assoc]
  rfl

theorem rrFront_parses (hg : ∀ b d, getBase (setBase b d) = b)
    (hs : ∀ b b' d, setBase b (setBase b' d) = setBase b d) (d : δ) (handle : UInt32) (timeout : UInt16)
    {l : List (UInt16 × Bytes)} (hl : CpfOk l) :
    Parses (rrFront getBase setBase) d (rrBytes handle timeout l) ⟨parsedItems l⟩
      (setBase ⟨handle, timeout⟩ d) := by
  intro c
  refine ParsesAt.congr_bytes ((ParsesAt.bind (ParsesAt.part getBase setBase d rfl
    (ParsesAt.member_enc Codec.u32_lawful _ _ _ _ handle))
    (ParsesAt.bind (ParsesAt.part getBase setBase _ (hg _ _)
    (ParsesAt.member_enc Codec.u16_lawful _ _ _ _ timeout))
    (ParsesAt.fresh (CPFPacket.parses l hl.1 hl.2 _ _) _))).congr_obj ?_) ?_
  · rw [hs]
  · simp [rrBytes, Codec.u16, Codec.u32, le16_eq_le, le32_eq_le]

theorem rawData_getDataLength (t : UInt16) {p : Bytes} (hp : p.length < 65536) :
    ((⟨t, rawData p⟩ : CPFItem).getDataLength = 0) ↔ p = [] := by
  by_cases h : p = []
  · simp [h, CPFItem.getDataLength, rawData]
  · rw [rawData_of_ne h]
    simp only [CPFItem.getDataLength, SerializableBuffer.obj, SerializableBuffer.getLength, h, iff_false]
    intro e
    have := congrArg UInt16.toNat e
    rw [toNat_ofNat16 hp] at this
    exact h (List.length_eq_zero_iff.mp this)

theorem rrRest_eq (setData : CPFItem → Prog δ Unit) {l : List (UInt16 × Bytes)} (hl : CpfOk l) (d : δ) (r : Reader) :
    rrRest setData ⟨parsedItems l⟩ (d, r) =
      match rrCheck l with
      | .error s => (.throw (logicError s), (d, r))
      | .ok p => match setData ⟨0x00B2, rawData p⟩ d with | (x, d') => (x, (d', r)) := by
  have hcount : (CPFPacket.getItemCount ⟨parsedItems l⟩).toNat = l.length := by
    simp only [CPFPacket.getItemCount, parsedItems, List.length_map]
    exact toNat_ofNat16 hl.1
  match l, hl, hcount with
  | [], _, hcount =>
    rw [rrRest, if_pos (by rw [hcount]; simp)]
    rfl
  | [_], _, hcount =>
    rw [rrRest, if_pos (by rw [hcount]; simp)]
    rfl
  | (t0, p0) :: (t1, p1) :: more, hl, hcount =>
    have hp0 : p0.length < 65536 := hl.2 _ List.mem_cons_self
    rw [rrRest, if_neg (by rw [hcount]; simp)]
    simp only [parsedItems, List.map_cons, List.getElem?_cons_zero, List.getElem?_cons_succ, rrCheck, itemNull,
      itemUnconnectedMessage, ne_eq, rawData_getDataLength t0 hp0]
    by_cases h0 : t0 = 0x0000
    · by_cases h1 : p0 = []
      · by_cases h2 : t1 = 0x00B2
        · simp [h0, h1, h2, Prog.zoom]
        · simp [h0, h1, h2, Prog.raise]
      · simp [h0, h1, Prog.raise]
    · simp [h0, Prog.raise]

/-- `RRData::deserialize` on complete RR data in a buffer. -/
theorem RRData.deserialize_eq (setData : CPFItem → Prog δ Unit) (hg : ∀ b d, getBase (setBase b d) = b)
    (hs : ∀ b b' d, setBase b (setBase b' d) = setBase b d) (d : δ) (handle : UInt32) (timeout : UInt16)
    {l : List (UInt16 × Bytes)} (hl : CpfOk l) (tail : Bytes) (c : Nat) :
    RRData.deserialize getBase setBase setData (d, .buffer ⟨rrBytes handle timeout l ++ tail, c⟩) =
      match rrCheck l with
      | .error s => (.throw (logicError s), (setBase ⟨handle, timeout⟩ d,
          .buffer ⟨tail, c + (rrBytes handle timeout l).length⟩))
      | .ok p => match setData ⟨0x00B2, rawData p⟩ (setBase ⟨handle, timeout⟩ d) with
        | (x, d') => (x, (d', .buffer ⟨tail, c + (rrBytes handle timeout l).length⟩)) := by
  rw [RRData.deserialize_split, Prog.bind_ok ((rrFront_parses getBase setBase hg hs d handle timeout hl c).buffer tail),
    rrRest_eq setData hl]

/-- `RRData::deserialize` on complete RR data in a stream. -/
theorem RRData.deserialize_eq_stream (setData : CPFItem → Prog δ Unit) (hg : ∀ b d, getBase (setBase b d) = b)
    (hs : ∀ b b' d, setBase b (setBase b' d) = setBase b d) (d : δ) (handle : UInt32) (timeout : UInt16)
    {l : List (UInt16 × Bytes)} (hl : CpfOk l) (before tail : Bytes) (junk : UInt8) :
    RRData.deserialize getBase setBase setData
      (d, .stream ⟨before ++ (rrBytes handle timeout l ++ tail), before.length, true, junk⟩) =
      match rrCheck l with
      | .error s => (.throw (logicError s), (setBase ⟨handle, timeout⟩ d,
          .stream ⟨before ++ (rrBytes handle timeout l ++ tail),
            before.length + (rrBytes handle timeout l).length, true, junk⟩))
      | .ok p => match setData ⟨0x00B2, rawData p⟩ (setBase ⟨handle, timeout⟩ d) with
        | (x, d') => (x, (d', .stream ⟨before ++ (rrBytes handle timeout l ++ tail),
            before.length + (rrBytes handle timeout l).length, true, junk⟩)) := by
  rw [RRData.deserialize_split, Prog.bind_ok ((rrFront_parses getBase setBase hg hs d handle timeout hl
    before.length).stream before tail junk rfl), rrRest_eq setData hl]

/-- `RRData::deserialize` on RR data that ends early. -/
theorem RRData.deserialize_short (setData : CPFItem → Prog δ Unit) (hg : ∀ b d, getBase (setBase b d) = b)
    (hs : ∀ b b' d, setBase b (setBase b' d) = setBase b d) (d : δ) (handle : UInt32) (timeout : UInt16)
    {l : List (UInt16 × Bytes)} (hl : CpfOk l) (cut missing : Bytes) (hm : missing ≠ [])
    (e : rrBytes handle timeout l = cut ++ missing) (c : Nat) :
    ∃ what d' r', RRData.deserialize getBase setBase setData (d, .buffer ⟨cut, c⟩) =
      (.throw (lengthError what), (d', .buffer r')) := by
  obtain ⟨what, d', r', h⟩ := (rrFront_parses getBase setBase hg hs d handle timeout hl c).short cut missing e hm
  refine ⟨what, d', r', ?_⟩
  rw [RRData.deserialize_split, Prog.bind_throw h]

end
theorem CpfOk.body_lt {t : UInt16} {x : UInt16 × Bytes} {body : Bytes} {more : List (UInt16 × Bytes)}
    (h : CpfOk (x :: (t, body) :: more)) : body.length < 65536 :=
  h.2 (t, body) (List.mem_cons_of_mem _ List.mem_cons_self)

theorem RRData.ok_of_body (d : RRData) {input body : Bytes} (c : Nat) (h : RRBody input body) :
    ∃ s, RRData.cls.deserialize (d, .buffer ⟨input, c⟩) = (.ok (), s) := by
  obtain ⟨handle, timeout, more, tail, hl, e⟩ := h
  have h2 := RRData.deserialize_eq (fun x : RRData => x) (fun b _ => b) (fun _ => pure ()) (fun _ _ => rfl)
    (fun _ _ _ => rfl) d handle timeout hl tail c
  rw [rrCheck_ok.mpr ⟨more, rfl⟩] at h2
  rw [e]
  exact ⟨_, h2⟩

theorem RRDataResponse.deserialize_body (d : RRDataResponse) (handle : UInt32) (timeout : UInt16)
    {l : List (UInt16 × Bytes)} (hl : CpfOk l) (tail : Bytes) (c : Nat) :
    RRDataResponse.cls.deserialize (d, .buffer ⟨rrBytes handle timeout l ++ tail, c⟩) =
      match rrCheck l with
      | .error s => (.throw (logicError s), ({ d with base := ⟨handle, timeout⟩ },
          .buffer ⟨tail, c + (rrBytes handle timeout l).length⟩))
      | .ok p => match RRDataResponse.setData ⟨0x00B2, rawData p⟩ { d with base := ⟨handle, timeout⟩ } with
        | (x, d') => (x, (d', .buffer ⟨tail, c + (rrBytes handle timeout l).length⟩)) :=
  RRData.deserialize_eq (fun x : RRDataResponse => x.base) (fun b r => { r with base := b })
      RRDataResponse.setData (fun _ _ => rfl) (fun _ _ _ => rfl) d handle timeout hl tail c

end Eip
