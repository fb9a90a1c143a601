import Verif.Spec.Streams
import Verif.Lemmas.Bytes
/-
Composition rules for `Writes` and `ParsesAt`.
-/
namespace Eip
open Spec

/-! ### Programs -/

theorem Prog.bind_def {σ α β : Type} (p : Prog σ α) (f : α → Prog σ β) : (p >>= f) = Prog.andThen p f := rfl

theorem Prog.bind_ok {σ α β : Type} {p : Prog σ α} {f : α → Prog σ β} {s s' : σ} {a : α}
    (h : p s = (.ok a, s')) : (p >>= f) s = f a s' := by
  rw [Prog.bind_def, Prog.andThen, h]

theorem Prog.bind_throw {σ α β : Type} {p : Prog σ α} {f : α → Prog σ β} {s s' : σ} {e : Exn}
    (h : p s = (.throw e, s')) : (p >>= f) s = (.throw e, s') := by
  rw [Prog.bind_def, Prog.andThen, h]

theorem Prog.bind_ub {σ α β : Type} {p : Prog σ α} {f : α → Prog σ β} {s s' : σ} {u : UB}
    (h : p s = (.ub u, s')) : (p >>= f) s = (.ub u, s') := by
  rw [Prog.bind_def, Prog.andThen, h]

theorem Prog.bind_eq_ok {σ α β : Type} {p : Prog σ α} {f : α → Prog σ β} {s s' : σ} {b : β}
    (h : (p >>= f) s = (.ok b, s')) : ∃ a s1, p s = (.ok a, s1) ∧ f a s1 = (.ok b, s') := by
  rw [Prog.bind_def, Prog.andThen] at h
  match hp : p s, h with
  | (.ok a, s1), h => exact ⟨a, s1, rfl, h⟩

theorem Prog.pure_apply {σ α : Type} (a : α) (s : σ) : (pure a : Prog σ α) s = (.ok a, s) := rfl

@[simp] theorem Prog.pure_bind {σ α β : Type} (a : α) (f : α → Prog σ β) : ((pure a : Prog σ α) >>= f) = f a := rfl

theorem Prog.bind_assoc {σ α β γ : Type} (p : Prog σ α) (f : α → Prog σ β) (g : β → Prog σ γ) :
    ((p >>= f) >>= g) = (p >>= fun a => f a >>= g) := by
  funext s
  simp only [Prog.bind_def, Prog.andThen]
  match p s with
  | (.ok a, s1) => rfl
  | (.throw e, s1) => rfl
  | (.ub u, s1) => rfl

/-! ### Writing -/

theorem Spec.appended_nil (w : StreamWriter) : appended w [] = w := by
  obtain ⟨out, room, good⟩ := w
  cases good <;> cases room <;> simp [appended]

theorem Spec.appended_appended (w : StreamWriter) (bs cs : Bytes) : appended (appended w bs) cs = appended w (bs ++ cs) := by
  obtain ⟨out, room, good⟩ := w
  cases good <;> cases room <;> simp [appended]
  rename_i n
  by_cases h : bs.length ≤ n
  · simp [h, List.take_append, List.take_of_length_le h]
    omega
  · have h' : n ≤ bs.length := by omega
    have h2 : ¬ bs.length + cs.length ≤ n := by omega
    simp [h, h2, List.take_append, Nat.sub_eq_zero_of_le h']
    omega

theorem Spec.HasRoom.appended {w : StreamWriter} {bs : Bytes} (h : HasRoom w bs) :
    appended w bs = ⟨w.out ++ bs, w.room.map (· - bs.length), true⟩ := by
  obtain ⟨out, room, good⟩ := w
  obtain ⟨h1, h2⟩ := h
  subst h1
  cases room with
  | none => rfl
  | some n =>
    have := h2 n rfl
    simp [Spec.appended, this, List.take_of_length_le this]

theorem StreamWriter.writeBuffer_eq (bs : Bytes) (w : StreamWriter) :
    StreamWriter.writeBuffer bs w = (.ok (), appended w bs) := by
  obtain ⟨out, room, good⟩ := w
  cases good <;> cases room <;> simp [appended, StreamWriter.writeBuffer]
  rename_i n
  by_cases h : bs.length ≤ n
  · simp [h, List.take_of_length_le h]
  · have h' : n ≤ bs.length := by omega
    simp [h, Nat.sub_eq_zero_of_le h']

theorem Spec.appended_new (bs : Bytes) : appended StreamWriter.new bs = ⟨bs, none, true⟩ := rfl

theorem Writes.nil : Writes (pure ()) [] where
  fits w _ := by simp [Prog.pure_apply]
  full w h := by simp at h
  stream w := by simp [Prog.pure_apply, Spec.appended_nil]

theorem Writes.writeBuffer (bs : Bytes) : Writes (Writer.writeBuffer bs) bs where
  fits w h := by
    simp only [Writer.writeBuffer, BufferWriter.writeBuffer]
    rw [if_neg (by omega)]
  full w h := by
    refine ⟨"Buffer to small to serialize value", w, 0, ?_, by omega, by omega, by simp [BufferWriter.memory], by simp⟩
    simp only [Writer.writeBuffer, BufferWriter.writeBuffer]
    rw [if_pos h]
  stream w := by simp only [Writer.writeBuffer, StreamWriter.writeBuffer_eq]

theorem Writes.bind {p q : Prog Writer Unit} {bs cs : Bytes} (hp : Writes p bs) (hq : Writes q cs) :
    Writes (p >>= fun _ => q) (bs ++ cs) where
  fits w h := by
    rw [List.length_append] at h
    rw [Prog.bind_ok (hp.fits w (by omega)), hq.fits _ (by simp; omega)]
    simp [Nat.add_assoc]
  full w h := by
    rw [List.length_append] at h
    by_cases h1 : w.rest.length < bs.length
    · obtain ⟨what, w', k, e, hk, hk', hm, hc⟩ := hp.full w h1
      refine ⟨what, w', k, Prog.bind_throw e, hk, by rw [List.length_append]; omega, ?_, hc⟩
      rw [hm, List.take_append_of_le_length (by omega)]
    · obtain ⟨what, w', k, e, hk, hk', hm, hc⟩ := hq.full ⟨w.written ++ bs, w.rest.drop bs.length,
        w.byteCount + bs.length⟩ (by simp; omega)
      refine ⟨what, w', bs.length + k, ?_, ?_, ?_, ?_, ?_⟩
      · rw [Prog.bind_ok (hp.fits w (by omega)), e]
      · simp at hk; omega
      · simp; omega
      · rw [hm]
        simp [List.take_append, List.drop_drop, List.take_of_length_le (Nat.le_add_right bs.length k)]
      · rw [hc]; simp; omega
  stream w := by
    rw [Prog.bind_ok (hp.stream w), hq.stream, Spec.appended_appended]

theorem Writes.write8 (v : UInt8) : Writes (Writer.write8 v) (le8 v) := Writes.writeBuffer _
theorem Writes.write16 (v : UInt16) : Writes (Writer.write16 v) (le16 v) := Writes.writeBuffer _
theorem Writes.write32 (v : UInt32) : Writes (Writer.write32 v) (le32 v) := Writes.writeBuffer _

theorem Writes.opt {o : Option Obj} {f : Obj → Bytes} (h : ∀ d, o = some d → Writes d.serialize (f d)) :
    Writes (match o with | some d => d.serialize | none => pure ()) ((o.map f).getD []) := by
  cases o with
  | none => exact Writes.nil
  | some d => exact h d rfl

/-- A program that writes `bs` writes nothing else. -/
theorem Writes.unique {p : Prog Writer Unit} {bs cs : Bytes} (h1 : Writes p bs) (h2 : Writes p cs) : bs = cs := by
  have a := h1.stream StreamWriter.new
  have b := h2.stream StreamWriter.new
  rw [a] at b
  simpa [Spec.appended_new] using b

/-! ### Parsing -/

theorem ParsesAt.pure {δ α : Type} (c : Nat) (x : α) (d : δ) :
    ParsesAt c (Pure.pure x : Prog (δ × Reader) α) d [] x d where
  buffer tail := by simp [Prog.pure_apply]
  short cut missing h hm := by
    exact absurd (List.append_eq_nil_iff.mp h.symm).2 hm
  stream before tail junk _ := by simp [Prog.pure_apply]

private theorem append_cut {bs cs cut missing : Bytes} (h : bs ++ cs = cut ++ missing) (_hm : missing ≠ []) :
    (∃ m, bs = cut ++ m ∧ m ≠ []) ∨ ∃ cut', cut = bs ++ cut' ∧ cs = cut' ++ missing := by
  rcases List.append_eq_append_iff.mp h with ⟨a, h1, h2⟩ | ⟨a, h1, h2⟩
  · exact Or.inr ⟨a, h1, h2⟩
  · by_cases ha : a = []
    · subst ha
      right
      exact ⟨[], by simpa using h1.symm, by simpa using h2.symm⟩
    · exact Or.inl ⟨a, h1, ha⟩

theorem ParsesAt.bind {δ α β : Type} {c : Nat} {p : Prog (δ × Reader) α} {f : α → Prog (δ × Reader) β}
    {d d1 d2 : δ} {bs cs : Bytes} {x : α} {y : β}
    (hp : ParsesAt c p d bs x d1) (hq : ParsesAt (c + bs.length) (f x) d1 cs y d2) :
    ParsesAt c (p >>= f) d (bs ++ cs) y d2 where
  buffer tail := by
    rw [List.append_assoc, Prog.bind_ok (hp.buffer (cs ++ tail)), hq.buffer tail]
    simp [Nat.add_assoc]
  short cut missing h hm := by
    rcases append_cut h hm with ⟨m, h1, h2⟩ | ⟨cut', h1, h2⟩
    · obtain ⟨what, d1', r1, e⟩ := hp.short cut m h1 h2
      exact ⟨what, d1', r1, Prog.bind_throw e⟩
    · obtain ⟨what, d1', r1, e⟩ := hq.short cut' missing h2 hm
      refine ⟨what, d1', r1, ?_⟩
      rw [h1, Prog.bind_ok (hp.buffer cut'), e]
  stream before tail junk hb := by
    have h1 := hp.stream before (cs ++ tail) junk hb
    have h2 := hq.stream (before ++ bs) tail junk (by simp [hb])
    rw [List.append_assoc bs cs tail, Prog.bind_ok h1]
    rw [List.append_assoc before bs] at h2
    rw [h2]
    simp [Nat.add_assoc]

/-- Sequencing with a step that touches neither reader nor result. -/
theorem ParsesAt.bind0 {δ α β : Type} {c : Nat} {p : Prog (δ × Reader) α} {f : α → Prog (δ × Reader) β}
    {d d1 d2 : δ} {cs : Bytes} {x : α} {y : β}
    (hp : ParsesAt c p d [] x d1) (hq : ParsesAt c (f x) d1 cs y d2) :
    ParsesAt c (p >>= f) d cs y d2 := by
  have := ParsesAt.bind hp (f := f) (y := y) (d2 := d2) (cs := cs) (by simpa using hq)
  simpa using this

theorem ParsesAt.getObj {δ : Type} (c : Nat) (d : δ) : ParsesAt c (Eip.getObj : Prog (δ × Reader) δ) d [] d d where
  buffer tail := by simp [Eip.getObj]
  short cut missing h hm := by
    exact absurd (List.append_eq_nil_iff.mp h.symm).2 hm
  stream before tail junk _ := by simp [Eip.getObj]

theorem ParsesAt.modifyObj {δ : Type} (c : Nat) (f : δ → δ) (d : δ) :
    ParsesAt c (Eip.modifyObj f : Prog (δ × Reader) Unit) d [] () (f d) where
  buffer tail := by simp [Eip.modifyObj]
  short cut missing h hm := by
    exact absurd (List.append_eq_nil_iff.mp h.symm).2 hm
  stream before tail junk _ := by simp [Eip.modifyObj]

private theorem cut_short {bs cut missing : Bytes} (h : bs = cut ++ missing) (hm : missing ≠ []) :
    cut.length < bs.length := by
  have := congrArg List.length h
  have := List.length_pos_iff.mpr hm
  simp at *
  omega

theorem drop_before (before rest : Bytes) (c : Nat) (h : before.length = c) :
    (before ++ rest).drop c = rest := by
  subst h; simp

theorem ParsesAt.readInto {δ : Type} (c : Nat) (d : δ) (old bs : Bytes) (h : bs.length = old.length) :
    ParsesAt c (onReader (Reader.readInto old) : Prog (δ × Reader) Bytes) d bs bs d where
  buffer tail := by
    simp only [onReader, Prog.zoom, Reader.readInto, BufferReader.readBuffer]
    rw [if_neg (by simp; omega)]
    simp [← h]
  short cut missing hc hm := by
    have := cut_short hc hm
    refine ⟨"Buffer too small to deserialize value", d, ⟨cut, c⟩, ?_⟩
    simp only [onReader, Prog.zoom, Reader.readInto, BufferReader.readBuffer]
    rw [if_pos (by omega)]
  stream before tail junk hb := by
    simp only [onReader, Prog.zoom, Reader.readInto, StreamReader.readInto, drop_before _ _ _ hb]
    rw [if_neg (by simp), if_neg (by simp; omega)]
    simp [← h]

theorem ParsesAt.readLocal {δ : Type} (c : Nat) (d : δ) (n : Nat) (bs : Bytes) (h : bs.length = n) :
    ParsesAt c (onReader (Reader.readLocal n) : Prog (δ × Reader) Bytes) d bs bs d where
  buffer tail := by
    simp only [onReader, Prog.zoom, Reader.readLocal, BufferReader.readBuffer]
    rw [if_neg (by simp; omega)]
    simp [← h]
  short cut missing hc hm := by
    have := cut_short hc hm
    refine ⟨"Buffer too small to deserialize value", d, ⟨cut, c⟩, ?_⟩
    simp only [onReader, Prog.zoom, Reader.readLocal, BufferReader.readBuffer]
    rw [if_pos (by omega)]
  stream before tail junk hb := by
    simp only [onReader, Prog.zoom, Reader.readLocal, StreamReader.readInto, StreamReader.canRead,
      drop_before _ _ _ hb]
    rw [if_pos (by simp; omega), if_neg (by simp), if_neg (by simp; omega)]
    simp [← h]

theorem ParsesAt.skip {δ : Type} (c : Nat) (d : δ) (bs : Bytes) :
    ParsesAt c (onReader (Reader.skip bs.length) : Prog (δ × Reader) Unit) d bs () d where
  buffer tail := by
    simp only [onReader, Prog.zoom, Reader.skip, BufferReader.skip]
    rw [if_neg (by simp)]
    simp
  short cut missing hc hm := by
    have := cut_short hc hm
    refine ⟨"End of buffer reached skipping forward", d, ⟨cut, c⟩, ?_⟩
    simp only [onReader, Prog.zoom, Reader.skip, BufferReader.skip]
    rw [if_pos (by omega)]
  stream before tail junk hb := by
    simp only [onReader, Prog.zoom, Reader.skip, StreamReader.skip]
    rw [if_neg (by simp), if_pos (by simp; omega)]

theorem ParsesAt.member {δ τ : Type} {cd : Codec τ} {n : Nat} (law : cd.Lawful n) (c : Nat)
    (getter : δ → τ) (setter : τ → δ → δ) (d : δ) (bs : Bytes) (h : bs.length = n) :
    ParsesAt c (readMember cd getter setter) d bs () (setter (cd.dec bs) d) := by
  have h1 := ParsesAt.readInto c d (cd.enc (getter d)) bs (by rw [h, law.len])
  have h2 := ParsesAt.modifyObj (c + bs.length) (setter (cd.dec bs)) d
  have h3 := ParsesAt.bind0 (ParsesAt.getObj c d)
    (f := fun o => onReader (Reader.readInto (cd.enc (getter o))) >>= fun bs => Eip.modifyObj (setter (cd.dec bs)))
    (ParsesAt.bind h1 h2)
  rw [List.append_nil] at h3
  exact h3

theorem ParsesAt.member_enc {δ τ : Type} {cd : Codec τ} {n : Nat} (law : cd.Lawful n) (c : Nat)
    (getter : δ → τ) (setter : τ → δ → δ) (d : δ) (v : τ) :
    ParsesAt c (readMember cd getter setter) d (cd.enc v) () (setter v d) := by
  have := ParsesAt.member law c getter setter d (cd.enc v) (law.len v)
  rwa [law.dec_enc] at this

theorem ParsesAt.local8 {δ : Type} (c : Nat) (d : δ) (v : UInt8) :
    ParsesAt c (readLocal8 : Prog (δ × Reader) UInt8) d (le8 v) v d := by
  have h := ParsesAt.bind (ParsesAt.readLocal c d 1 (le8 v) (by simp))
    (f := fun bs => Pure.pure (de8 bs)) (ParsesAt.pure _ _ _)
  simpa [readLocal8] using h

theorem ParsesAt.local16 {δ : Type} (c : Nat) (d : δ) (v : UInt16) :
    ParsesAt c (readLocal16 : Prog (δ × Reader) UInt16) d (le16 v) v d := by
  have h := ParsesAt.bind (ParsesAt.readLocal c d 2 (le16 v) (by simp))
    (f := fun bs => Pure.pure (de16 bs)) (ParsesAt.pure _ _ _)
  simpa [readLocal16] using h

theorem ParsesAt.part {δ τ α : Type} {c : Nat} {p : Prog (τ × Reader) α} {t t' : τ} {bs : Bytes} {x : α}
    (getter : δ → τ) (setter : τ → δ → δ) (d : δ) (ht : getter d = t) (hp : ParsesAt c p t bs x t') :
    ParsesAt c (onPart getter setter p) d bs x (setter t' d) where
  buffer tail := by simp [onPart, Prog.zoom, ht, hp.buffer tail]
  short cut missing h hm := by
    obtain ⟨what, d1, r1, e⟩ := hp.short cut missing h hm
    exact ⟨what, setter d1 d, r1, by simp [onPart, Prog.zoom, ht, e]⟩
  stream before tail junk hb := by simp [onPart, Prog.zoom, ht, hp.stream before tail junk hb]

theorem ParsesAt.rawBuffer (c : Nat) (b : SerializableBuffer) (bs : Bytes) :
    ParsesAt c (SerializableBuffer.deserializeLen bs.length) b bs () ⟨bs⟩ where
  buffer tail := by
    simp only [SerializableBuffer.deserializeLen, BufferReader.readBuffer]
    rw [if_neg (by simp)]
    simp
  short cut missing hc hm := by
    have := cut_short hc hm
    refine ⟨"Buffer too small to deserialize value", b, ⟨cut, c⟩, ?_⟩
    simp only [SerializableBuffer.deserializeLen, BufferReader.readBuffer]
    rw [if_pos (by omega)]
  stream before tail junk hb := by
    have hl : (if bs.length ≠ b.data.length then List.replicate bs.length junk else b.data).length
        = bs.length := by
      split
      · simp
      · omega
    simp only [SerializableBuffer.deserializeLen, StreamReader.readInto, drop_before _ _ _ hb, hl]
    rw [if_neg (by simp), if_neg (by simp)]
    simp

/-- Parsing into a fresh local object. -/
theorem ParsesAt.fresh {δ τ : Type} {c : Nat} {p : Prog (τ × Reader) Unit} {t t' : τ} {bs : Bytes}
    (hp : ParsesAt c p t bs () t') (d : δ) : ParsesAt c (parseFresh t p) d bs t' d where
  buffer tail := by simp only [parseFresh, hp.buffer tail]
  short cut missing h hm := by
    obtain ⟨what, d1, r1, e⟩ := hp.short cut missing h hm
    exact ⟨what, d, r1, by simp only [parseFresh, e]⟩
  stream before tail junk hb := by simp only [parseFresh, hp.stream before tail junk hb]

theorem ParsesAt.newBuffer {δ : Type} (c : Nat) (d : δ) (bs : Bytes) :
    ParsesAt c (readNewBuffer bs.length : Prog (δ × Reader) SerializableBuffer) d bs ⟨bs⟩ d :=
  ParsesAt.fresh (ParsesAt.rawBuffer c SerializableBuffer.empty bs) d

/-- A branch on a decidable condition. -/
theorem ParsesAt.ite_pos {δ α : Type} {c : Nat} {P : Prop} [Decidable P] {p q : Prog (δ × Reader) α} {d d' : δ}
    {bs : Bytes} {x : α} (h : P) (hp : ParsesAt c p d bs x d') :
    ParsesAt c (if P then p else q) d bs x d' := by rwa [if_pos h]

theorem ParsesAt.ite_neg {δ α : Type} {c : Nat} {P : Prop} [Decidable P] {p q : Prog (δ × Reader) α} {d d' : δ}
    {bs : Bytes} {x : α} (h : ¬ P) (hp : ParsesAt c q d bs x d') :
    ParsesAt c (if P then p else q) d bs x d' := by rwa [if_neg h]

theorem ParsesAt.congr_bytes {δ α : Type} {c : Nat} {p : Prog (δ × Reader) α} {d d' : δ} {bs cs : Bytes} {x : α}
    (h : ParsesAt c p d bs x d') (e : bs = cs) : ParsesAt c p d cs x d' := e ▸ h

theorem Spec.ParsesAt.congr_obj {δ α : Type} {c : Nat} {p : Prog (δ × Reader) α} {d d' d'' : δ} {bs : Bytes} {x : α}
    (h : ParsesAt c p d bs x d') (e : d' = d'') : ParsesAt c p d bs x d'' := e ▸ h

end Eip
