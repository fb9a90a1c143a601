import Verif.Spec.Sized
import Verif.Lemmas.Uniform
import Verif.Lemmas.Payload
/-
Helpers for C85 - C87.
-/
namespace Eip
open Spec

theorem ReportsConsumed.of_covers {δ : Type} {p : Prog (δ × Reader) Unit} {length : δ → Nat} {S : Nat → Bytes → Prop}
    (hS : ∀ c, Covers (S c))
    (hp : ∀ c d cs, S c cs → ∃ d', ParsesAt c p d cs () d' ∧ length d' = cs.length) : ReportsConsumed p length := by
  intro d d' input c r e
  rcases hS c input with ⟨cs, tail, hs, rfl⟩ | ⟨cs, m, hs, hm, ei⟩
  · obtain ⟨d1, h, hl⟩ := hp c d cs hs
    rw [h.buffer tail] at e
    simp only [Prod.mk.injEq, true_and] at e
    exact ⟨cs, tail, rfl, e.2.symm, by rw [← e.1, hl]⟩
  · obtain ⟨d1, h, hl⟩ := hp c d cs hs
    obtain ⟨what, d2, r2, e'⟩ := h.short input m ei hm
    rw [e'] at e
    simp at e

theorem rawData_reported (bs : Bytes) :
    (match rawData bs with | some d => d.getLength | none => 0) = bs.length := by
  by_cases h : bs = []
  · simp [h, rawData]
  · simp [rawData, h, SerializableBuffer.obj, SerializableBuffer.getLength]

theorem rawData_cases (bs : Bytes) :
    (rawData bs = none ∧ bs.length = 0) ∨ ∃ o, rawData bs = some o ∧ o.getLength = bs.length := by
  by_cases h : bs = []
  · simp [h, rawData]
  · exact Or.inr ⟨_, rawData_of_ne h, rfl⟩

theorem parsedItems_reported (l : List (UInt16 × Bytes)) (hl : ∀ i ∈ l, i.2.length < 65536) (n : Nat) :
    (parsedItems l).foldl (fun k i => k + i.getLength) n =
      n + ((l.map (fun i => item i.1 i.2)).flatten).length := by
  induction l generalizing n with
  | nil => simp [parsedItems]
  | cons i l ih =>
    have h1 : CPFItem.getLength ⟨i.1, rawData i.2⟩ = 4 + i.2.length := by
      have hb := rawData_reported i.2
      have hi := hl i List.mem_cons_self
      unfold CPFItem.getLength CPFItem.getDataLength
      cases hr : rawData i.2 with
      | none => rw [hr] at hb; simp only at hb ⊢; rw [← hb]; rfl
      | some o => rw [hr] at hb; simp only at hb ⊢; rw [hb, toNat_ofNat16 hi]
    have := ih (fun j hj => hl j (List.mem_cons_of_mem _ hj)) (n + (4 + i.2.length))
    simp only [parsedItems, List.map_cons, List.foldl_cons, h1] at this ⊢
    rw [this]
    simp [item, le_length]
    omega

/-- What remains to be done after the item of a sequenced item was parsed. -/
def SequencedDataItem.finish {τ : Type} (o : Res Unit × (SequencedDataItem τ × Reader)) :
    Res Unit × SequencedDataItem τ :=
  match o with
  | (.ok (), (d, _)) => (.ok (), { d with alreadyDeserializing := false })
  | (.throw e, (d, _)) => (.throw e, d)
  | (.ub u, (d, _)) => (.ub u, d)

theorem getDataAs_sequenced {τ : Type} (cls : Class τ) (ha : cls.assignBuffer = none) (t seq : UInt16) (bs : Bytes)
    (d : SequencedDataItem τ) (hd : d.alreadyDeserializing = false) (hl : bs.length < 65534) :
    (⟨t, rawData (le 2 seq.toNat ++ bs)⟩ : CPFItem).getDataAs (SequencedDataItem.cls cls) d =
      SequencedDataItem.finish (cls.deserializeLen (SequencedDataItem τ) SequencedDataItem.onBase
        (SequencedDataItem.deserialize cls) (SequencedDataItem.getLength cls) bs.length
        (⟨d.base, seq, true⟩, .buffer ⟨bs, 2⟩)) := by
  obtain ⟨b, old, f⟩ := d
  simp only at hd
  subst hd
  have hne : le 2 seq.toNat ++ bs ≠ [] := by
    intro e
    have := congrArg List.length e
    simp [le_length] at this
  have hlen : (le 2 seq.toNat ++ bs).length = 2 + bs.length := by simp [le_length]
  have hsub : sizeSub (le 2 seq.toNat ++ bs).length 2 = bs.length := by
    rw [hlen]
    simp only [sizeSub]
    omega
  have e1 : (⟨t, rawData (le 2 seq.toNat ++ bs)⟩ : CPFItem).getDataAs (SequencedDataItem.cls cls) ⟨b, old, false⟩ =
      deserializeFrom (SequencedDataItem.cls cls) (le 2 seq.toNat ++ bs) (le 2 seq.toNat ++ bs).length ⟨b, old, false⟩ := by
    rw [rawData_of_ne hne]
    simp only [CPFItem.getDataAs, copySerializable, SerializableBuffer.obj, SequencedDataItem.cls, ha, Option.map_none,
      SerializableBuffer.getLength]
  have h1 := (ParsesAt.member_enc Codec.u16_lawful 0 (fun d : SequencedDataItem τ => d.sequenceNum)
    (fun v d => { d with sequenceNum := v }) ⟨b, old, false⟩ seq).buffer bs
  have eb : Codec.u16.enc seq = le 2 seq.toNat := by simp [Codec.u16, le16_eq_le]
  rw [eb, le_length] at h1
  rw [e1]
  have e2 : (SequencedDataItem.cls cls).runLen (le 2 seq.toNat ++ bs).length
      (⟨b, old, false⟩, .buffer ⟨le 2 seq.toNat ++ bs, 0⟩) =
      (do cls.deserializeLen (SequencedDataItem τ) SequencedDataItem.onBase (SequencedDataItem.deserialize cls)
            (SequencedDataItem.getLength cls) bs.length
          modifyObj (fun d => { d with alreadyDeserializing := false })) (⟨b, seq, true⟩, .buffer ⟨bs, 2⟩) := by
    show SequencedDataItem.deserializeLen cls (le 2 seq.toNat ++ bs).length _ = _
    unfold SequencedDataItem.deserializeLen
    rw [Prog.bind_ok (show getObj _ = (.ok _, _) from rfl)]
    simp only [Bool.false_eq_true, if_false]
    rw [Prog.bind_ok h1, Prog.bind_ok (show modifyObj _ _ = (.ok (), _) from rfl), hsub]
  show (match (SequencedDataItem.cls cls).runLen (le 2 seq.toNat ++ bs).length
      (⟨b, old, false⟩, .buffer ⟨le 2 seq.toNat ++ bs, 0⟩) with | (r, (d', _)) => (r, d')) = _
  rw [e2]
  rw [Prog.bind_def]
  unfold Prog.andThen
  rcases cls.deserializeLen (SequencedDataItem τ) SequencedDataItem.onBase (SequencedDataItem.deserialize cls)
      (SequencedDataItem.getLength cls) bs.length (⟨b, seq, true⟩, .buffer ⟨bs, 2⟩) with ⟨_ | _ | _, d1, r1⟩ <;> rfl

theorem sequenced_onBase {τ : Type} {p : Prog (τ × Reader) Unit} {b x : τ} {r r' : Reader}
    (h : p (b, r) = (.ok (), (x, r'))) (seq : UInt16) :
    SequencedDataItem.onBase p (⟨b, seq, true⟩, r) = (.ok (), (⟨x, seq, true⟩, r')) := by
  simp only [SequencedDataItem.onBase, onPart, Prog.zoom, h]

/-- A parse that uses the whole buffer gives the same when two bytes were delivered before. -/
def Movable {δ : Type} (p : Prog (δ × Reader) Unit) : Prop :=
  ∀ (d x : δ) (bs : Bytes), p (d, .buffer ⟨bs, 0⟩) = (.ok (), (x, .buffer ⟨[], bs.length⟩)) →
    p (d, .buffer ⟨bs, 2⟩) = (.ok (), (x, .buffer ⟨[], 2 + bs.length⟩))

theorem Movable.of_covers {δ : Type} {p : Prog (δ × Reader) Unit} {S : Bytes → Prop} (hS : Covers S)
    (hp : ∀ cs, S cs → ∃ f : δ → δ, ∀ c d, ParsesAt c p d cs () (f d)) : Movable p := by
  intro d x bs h
  rcases hS bs with ⟨cs, tail, hs, rfl⟩ | ⟨cs, m, hs, hm, e⟩
  · obtain ⟨f, hf⟩ := hp cs hs
    have h0 := ((hf 0 d).buffer tail).symm.trans h
    simp only [Prod.mk.injEq, true_and, Reader.buffer.injEq, BufferReader.mk.injEq] at h0
    obtain ⟨rfl, rfl, _⟩ := h0
    have := (hf 2 d).buffer []
    simpa using this
  · obtain ⟨f, hf⟩ := hp cs hs
    obtain ⟨what, d1, r1, e1⟩ := (hf 0 d).short bs m e hm
    rw [e1] at h
    simp at h

theorem Movable.rr {δ : Type} (getBase : δ → RRData) (setBase : RRData → δ → δ) (setData : CPFItem → Prog δ Unit)
    (hg : ∀ b d, getBase (setBase b d) = b) (hs : ∀ b b' d, setBase b (setBase b' d) = setBase b d) :
    Movable (RRData.deserialize getBase setBase setData) := by
  intro d x bs h
  rcases covers_rr bs with ⟨cs, tail, ⟨handle, timeout, l, hl, rfl⟩, rfl⟩ | ⟨cs, m, ⟨handle, timeout, l, hl, rfl⟩, hm, e⟩
  · have h0 := RRData.deserialize_eq getBase setBase setData hg hs d handle timeout hl tail 0
    have h2 := RRData.deserialize_eq getBase setBase setData hg hs d handle timeout hl tail 2
    rw [h] at h0
    rw [h2]
    cases hc : rrCheck l with
    | error s => rw [hc] at h0; simp at h0
    | ok p =>
      rw [hc] at h0
      simp only at h0 ⊢
      rcases hd : setData ⟨0x00B2, rawData p⟩ (setBase ⟨handle, timeout⟩ d) with ⟨r, d'⟩
      rw [hd] at h0
      simp only [Prod.mk.injEq, Reader.buffer.injEq, BufferReader.mk.injEq] at h0 ⊢
      obtain ⟨rfl, rfl, rfl, _⟩ := h0
      simp
  · obtain ⟨what, d', r', h'⟩ := RRData.deserialize_short getBase setBase setData hg hs d handle timeout hl bs m hm e 0
    rw [h'] at h
    simp at h

theorem readsSequenced_own {τ : Type} (cls : Class τ) (f : Nat → Prog (τ × Reader) Unit)
    (ho : cls.deserializeLen = fun _ part _ _ length => part (f length)) (ha : cls.assignBuffer = none)
    {t seq : UInt16} {bs : Bytes} {x : τ} {d : SequencedDataItem τ} (hd : d.alreadyDeserializing = false)
    (hl : bs.length < 65534) {r : Reader} (h : f bs.length (d.base, .buffer ⟨bs, 2⟩) = (.ok (), (x, r))) :
    (⟨t, rawData (le 2 seq.toNat ++ bs)⟩ : CPFItem).getDataAs (SequencedDataItem.cls cls) d =
      (.ok (), ⟨x, seq, false⟩) := by
  rw [getDataAs_sequenced cls ha t seq bs d hd hl, ho]
  simp only [SequencedDataItem.onBase, onPart, Prog.zoom, h]
  rfl

theorem readsSequenced_delegate {τ : Type} (cls : Class τ) (ho : cls.deserializeLen = delegateLen)
    (ha : cls.assignBuffer = none) (hm : Movable cls.deserialize)
    (t seq : UInt16) (bs : Bytes) (x : τ) (d : SequencedDataItem τ) (hd : d.alreadyDeserializing = false)
    (hl : bs.length < 65534)
    (h : cls.runLen bs.length (d.base, .buffer ⟨bs, 0⟩) = (.ok (), (x, .buffer ⟨[], bs.length⟩))) :
    (⟨t, rawData (le 2 seq.toNat ++ bs)⟩ : CPFItem).getDataAs (SequencedDataItem.cls cls) d =
      (.ok (), ⟨x, seq, false⟩) := by
  have h' : cls.deserialize (d.base, .buffer ⟨bs, 0⟩) = (.ok (), (x, .buffer ⟨[], bs.length⟩)) := by
    have e : cls.runLen bs.length = cls.deserialize := by
      unfold Class.runLen; rw [ho]; rfl
    rw [e] at h
    exact h
  have h2 := hm _ _ _ h'
  rw [getDataAs_sequenced cls ha t seq bs d hd hl, ho]
  have e3 : SequencedDataItem.deserialize cls (⟨d.base, seq, true⟩, .buffer ⟨bs, 2⟩) =
      (.ok (), (⟨x, seq, true⟩, .buffer ⟨[], 2 + bs.length⟩)) := by
    unfold SequencedDataItem.deserialize
    rw [Prog.bind_ok (show getObj _ = (.ok _, _) from rfl)]
    simp only [if_true, SequencedDataItem.onBase, onPart, Prog.zoom, h2]
  show SequencedDataItem.finish (SequencedDataItem.deserialize cls _) = _
  rw [e3]
  rfl

end Eip
