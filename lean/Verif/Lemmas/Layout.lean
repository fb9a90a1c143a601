import Verif.Spec.Memory
import Verif.Lemmas.Refs
import Verif.Lemmas.Parse
/-
Where the references of a parsed packet point.
-/
namespace Eip
open Spec

/-- The reader after consuming `n` bytes. -/
def RefReader.advance (r : RefReader) (n : Nat) : RefReader :=
  { r with buf := ⟨r.buf.off + n, r.buf.len - n⟩, byteCount := r.byteCount + n }

/-- At offset `off`, `q` consumes `bs`. -/
def RefParses (off : Nat) {δ α : Type} (q : Prog (δ × RefReader) α) (d : δ) (bs : Bytes) (x : α) (d' : δ) : Prop :=
  ∀ (r : RefReader) (tail : Bytes), r.buf.off = off → r.buf.off + r.buf.len ≤ r.mem.length →
    r.buf.bytes r.mem = bs ++ tail → q (d, r) = (.ok x, (d', r.advance bs.length))

theorem bytes_length {r : RefReader} (h : r.buf.off + r.buf.len ≤ r.mem.length) : (r.buf.bytes r.mem).length = r.buf.len := by
  simp [Slice.bytes]; omega

theorem advance_bytes {r : RefReader} {bs tail : Bytes} (hv : r.buf.bytes r.mem = bs ++ tail) :
    (r.advance bs.length).buf.bytes (r.advance bs.length).mem = tail := by
  simp only [RefReader.advance, Slice.bytes] at *
  rw [← List.drop_drop, ← List.drop_take, hv]
  simp

theorem RefParses.bind {off : Nat} {δ α β : Type} {q : Prog (δ × RefReader) α} {f : α → Prog (δ × RefReader) β}
    {d d1 d2 : δ} {bs cs : Bytes} {x : α} {y : β} (h : RefParses off q d bs x d1)
    (h' : RefParses (off + bs.length) (f x) d1 cs y d2) : RefParses off (q >>= f) d (bs ++ cs) y d2 := by
  intro r tail ho hr hv
  rw [List.append_assoc] at hv
  rw [Prog.bind_ok (h r (cs ++ tail) ho hr hv)]
  have hl := bytes_length hr
  rw [hv] at hl
  simp at hl
  rw [h' (r.advance bs.length) tail (by simp [RefReader.advance, ho]) (by simp [RefReader.advance]; omega) (advance_bytes hv)]
  simp [RefReader.advance, Nat.add_assoc, Nat.sub_sub]

theorem RefParses.bind0 {off : Nat} {δ α β : Type} {q : Prog (δ × RefReader) α} {f : α → Prog (δ × RefReader) β}
    {d d1 d2 : δ} {cs : Bytes} {x : α} {y : β} (h : RefParses off q d [] x d1)
    (h' : RefParses off (f x) d1 cs y d2) : RefParses off (q >>= f) d cs y d2 := by
  have := RefParses.bind h (f := f) (cs := cs) (y := y) (d2 := d2) (by simpa using h')
  simpa using this

theorem RefParses.pure {off : Nat} {δ α : Type} (x : α) (d : δ) : RefParses off (Pure.pure x : Prog (δ × RefReader) α) d [] x d :=
  fun _ _ _ _ _ => rfl

theorem RefParses.modify {off : Nat} {δ : Type} (f : δ → δ) (d : δ) : RefParses off (modifyRefObj f) d [] () (f d) :=
  fun _ _ _ _ _ => rfl

theorem RefParses.plain {off : Nat} {δ α : Type} {p : Prog (δ × Reader) α} {d d' : δ} {bs : Bytes} {x : α}
    (h : Parses p d bs x d') : RefParses off (Eip.plain p) d bs x d' := by
  intro r tail ho hr hv
  have e := (h r.byteCount).buffer tail
  have hl := bytes_length hr
  rw [hv] at hl
  simp at hl
  have : r.value = ⟨bs ++ tail, r.byteCount⟩ := by simp [RefReader.value, hv]
  simp only [Eip.plain, this, e, RefReader.advance]
  congr 4
  · omega
  · omega

theorem RefParses.slice {off : Nat} {δ : Type} (d : δ) (bs : Bytes) :
    RefParses off (readNewSlice bs.length) d bs ⟨off, bs.length⟩ d := by
  intro r tail ho hr hv
  have hl := bytes_length hr
  rw [hv] at hl
  simp at hl
  simp only [readNewSlice]
  rw [if_neg (by omega)]
  subst ho
  rfl

theorem RefParses.fresh {off : Nat} {δ τ : Type} {q : Prog (τ × RefReader) Unit} {t t' : τ} {bs : Bytes}
    (h : RefParses off q t bs () t') (d : δ) : RefParses off (parseFreshRef t q) d bs t' d := by
  intro r tail ho hr hv
  simp only [parseFreshRef, h r tail ho hr hv]

theorem RefParses.congr_bytes {off : Nat} {δ α : Type} {q : Prog (δ × RefReader) α} {d d' : δ} {bs cs : Bytes} {x : α}
    (h : RefParses off q d bs x d') (e : bs = cs) : RefParses off q d cs x d' := e ▸ h

theorem RefParses.congr_obj {off : Nat} {δ α : Type} {q : Prog (δ × RefReader) α} {d d1 d2 : δ} {bs : Bytes} {x : α}
    (h : RefParses off q d bs x d1) (e : d1 = d2) : RefParses off q d bs x d2 := e ▸ h

theorem ItemRef.parses (off : Nat) (d : ItemRef) (t : UInt16) {data : Bytes} (hl : data.length < 65536) :
    RefParses off ItemRef.deserialize d (item t data) ()
      ⟨t, if data.length = 0 then none else some ⟨off + 4, data.length⟩⟩ := by
  have h1 : RefParses off (Eip.plain (readMember .u16 (·.itemType) (fun v (i : ItemRef) => { i with itemType := v }))) d
      (Codec.u16.enc t) () { d with itemType := t } :=
    RefParses.plain (fun c => ParsesAt.member_enc Codec.u16_lawful c _ _ d t)
  have h2 : RefParses (off + (Codec.u16.enc t).length) (Eip.plain readLocal16) ({ d with itemType := t } : ItemRef)
      (le16 (UInt16.ofNat data.length)) (UInt16.ofNat data.length) { d with itemType := t } :=
    RefParses.plain (fun c => ParsesAt.local16 c _ _)
  refine RefParses.congr_bytes (RefParses.bind h1 (RefParses.bind h2 (cs := data) (y := ())
    (d2 := ⟨t, if data.length = 0 then none else some ⟨off + 4, data.length⟩⟩) ?_)) ?_
  · rw [toNat_ofNat16 hl]
    by_cases hp : data.length = 0
    · have hd : data = [] := List.eq_nil_of_length_eq_zero hp
      subst hd
      rw [if_neg (by simp), if_pos hp]
      exact RefParses.modify _ _
    · rw [if_pos (by omega), if_neg hp]
      refine RefParses.bind0 (RefParses.modify _ _) ?_
      refine RefParses.congr_obj (RefParses.congr_bytes (RefParses.bind (RefParses.slice _ data) (RefParses.modify _ _)) (by simp)) ?_
      simp [Codec.u16, le16_eq_le]
  · simp only [item, Codec.u16, le16_eq_le t, le16_ofNat]
    simp

theorem PacketRef.parsesItems (l : List (UInt16 × Bytes)) (hl : ∀ i ∈ l, i.2.length < 65536) (off : Nat) (d : PacketRef) :
    RefParses off (PacketRef.deserializeItems l.length) d ((l.map (fun i => item i.1 i.2)).flatten) ()
      ⟨d.items ++ layout off (shape l)⟩ := by
  induction l generalizing d off with
  | nil =>
    have := RefParses.pure (off := off) () d
    simpa [PacketRef.deserializeItems, layout, shape] using this
  | cons i l ih =>
    have h1 := ItemRef.parses off ⟨itemNull, none⟩ i.1 (hl i List.mem_cons_self)
    have h2 := ih (fun j hj => hl j (List.mem_cons_of_mem _ hj)) (off + (item i.1 i.2).length)
      ⟨d.items ++ [⟨i.1, if i.2.length = 0 then none else some ⟨off + 4, i.2.length⟩⟩]⟩
    have h3 : RefParses off (PacketRef.deserializeItems (l.length + 1)) d _ () _ :=
      RefParses.bind (RefParses.fresh h1 d) (RefParses.bind0 (RefParses.modify _ _) h2)
    refine h3.congr_obj ?_
    have : (item i.1 i.2).length = 4 + i.2.length := by simp [item]; omega
    simp [layout, shape, this, Nat.add_assoc]

theorem PacketRef.parses (l : List (UInt16 × Bytes)) (ok : CpfOk l) (off : Nat) (d : PacketRef) :
    RefParses off PacketRef.deserialize d (cpf l) () ⟨layout (off + 2) (shape l)⟩ := by
  refine RefParses.bind0 (RefParses.modify _ _) ?_
  have h2 : RefParses off (Eip.plain readLocal16) (⟨[]⟩ : PacketRef)
      (le16 (UInt16.ofNat l.length)) (UInt16.ofNat l.length) ⟨[]⟩ :=
    RefParses.plain (fun c => ParsesAt.local16 c _ _)
  refine RefParses.congr_bytes (RefParses.bind h2 (cs := (l.map (fun i => item i.1 i.2)).flatten) (y := ())
    (d2 := ⟨layout (off + 2) (shape l)⟩) ?_) ?_
  · rw [toNat_ofNat16 ok.1]
    have := PacketRef.parsesItems l ok.2 (off + (le16 (UInt16.ofNat l.length)).length) ⟨[]⟩
    simpa [le16_eq_le] using this
  · simp [cpf, le16_ofNat]

end Eip
