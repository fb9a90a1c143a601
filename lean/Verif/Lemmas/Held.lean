import Verif.Spec.Held
import Verif.Lemmas.Streams
/-
What is left of the input and what has been kept of it, as a Hoare logic (C130).
-/
namespace Eip
open Spec

/-- From an object and `n` bytes of input with `pre`, the program comes to `ok` or `fail`, and has taken a prefix. -/
def Spends {δ α : Type} (pre : δ → Nat → Prop) (p : Prog (δ × Reader) α) (ok : α → δ → Nat → Prop) (fail : δ → Nat → Prop) : Prop :=
  ∀ d bs c, pre d bs.length → ∃ taken rest c', bs = taken ++ rest ∧ (p (d, .buffer ⟨bs, c⟩)).2.2 = .buffer ⟨rest, c'⟩ ∧
    (∀ a, (p (d, .buffer ⟨bs, c⟩)).1 = .ok a → ok a (p (d, .buffer ⟨bs, c⟩)).2.1 rest.length) ∧
    ((∀ a, (p (d, .buffer ⟨bs, c⟩)).1 ≠ .ok a) → fail (p (d, .buffer ⟨bs, c⟩)).2.1 rest.length)

namespace Spends
variable {δ α β : Type} {pre : δ → Nat → Prop} {fail : δ → Nat → Prop}

theorem bind {p : Prog (δ × Reader) α} {q : α → Prog (δ × Reader) β} {mid : α → δ → Nat → Prop} {ok : β → δ → Nat → Prop}
    (hp : Spends pre p mid fail) (hq : ∀ a, Spends (mid a) (q a) ok fail) : Spends pre (p >>= q) ok fail := by
  intro d bs c h
  obtain ⟨t, r, c', e, e2, e3, e4⟩ := hp d bs c h
  rw [Prog.bind_def]
  generalize hx : p (d, .buffer ⟨bs, c⟩) = x at e2 e3 e4
  obtain ⟨res, d', rd⟩ := x
  cases e2
  cases res with
  | ok a =>
    obtain ⟨t2, r2, c2, f, f2, f3, f4⟩ := hq a d' r c' (e3 a rfl)
    refine ⟨t ++ t2, r2, c2, by rw [e, f, List.append_assoc], ?_⟩
    simp only [Prog.andThen, hx]
    exact ⟨f2, f3, f4⟩
  | throw ex =>
    refine ⟨t, r, c', e, ?_⟩
    simp only [Prog.andThen, hx]
    exact ⟨trivial, fun a h => (by cases h), fun _ => e4 (fun a h => by cases h)⟩
  | ub u =>
    refine ⟨t, r, c', e, ?_⟩
    simp only [Prog.andThen, hx]
    exact ⟨trivial, fun a h => (by cases h), fun _ => e4 (fun a h => by cases h)⟩

theorem mono {p : Prog (δ × Reader) α} {pre' : δ → Nat → Prop} {ok ok' : α → δ → Nat → Prop} {fail' : δ → Nat → Prop}
    (hp : Spends pre p ok fail) (h1 : ∀ d n, pre' d n → pre d n) (h2 : ∀ a d n, ok a d n → ok' a d n)
    (h3 : ∀ d n, fail d n → fail' d n) : Spends pre' p ok' fail' := by
  intro d bs c h
  obtain ⟨t, r, c', e, e2, e3, e4⟩ := hp d bs c (h1 _ _ h)
  exact ⟨t, r, c', e, e2, fun a h => h2 _ _ _ (e3 a h), fun h => h3 _ _ (e4 h)⟩

/-- Reading into memory of `old.length` bytes. -/
theorem readInto (old : Bytes) (h : ∀ d n, pre d n → n < old.length → fail d n) :
    Spends pre (onReader (Reader.readInto old) : Prog (δ × Reader) Bytes)
      (fun bs d n => bs.length = old.length ∧ pre d (n + old.length)) fail := by
  intro d bs c hp
  by_cases hl : bs.length < old.length
  · refine ⟨[], bs, c, rfl, ?_⟩
    simp only [onReader, Prog.zoom, Reader.readInto, BufferReader.readBuffer, hl, if_true]
    exact ⟨trivial, fun a h => (by cases h), fun _ => h _ _ hp hl⟩
  · refine ⟨bs.take old.length, bs.drop old.length, c + old.length, (List.take_append_drop _ _).symm, ?_⟩
    simp only [onReader, Prog.zoom, Reader.readInto, BufferReader.readBuffer, hl, if_false]
    refine ⟨trivial, fun a h => ?_, fun h => absurd rfl (h _)⟩
    cases h
    refine ⟨by simp; omega, ?_⟩
    rw [List.length_drop, Nat.sub_add_cancel (by omega)]
    exact hp

theorem readLocal (k : Nat) (h : ∀ d n, pre d n → n < k → fail d n) :
    Spends pre (onReader (Reader.readLocal k) : Prog (δ × Reader) Bytes) (fun _ d n => pre d (n + k)) fail := by
  intro d bs c hp
  by_cases hl : bs.length < k
  · refine ⟨[], bs, c, rfl, ?_⟩
    simp only [onReader, Prog.zoom, Reader.readLocal, BufferReader.readBuffer, hl, if_true]
    exact ⟨trivial, fun a h => (by cases h), fun _ => h _ _ hp hl⟩
  · refine ⟨bs.take k, bs.drop k, c + k, (List.take_append_drop _ _).symm, ?_⟩
    simp only [onReader, Prog.zoom, Reader.readLocal, BufferReader.readBuffer, hl, if_false]
    refine ⟨trivial, fun a h => ?_, fun h => absurd rfl (h _)⟩
    rw [List.length_drop, Nat.sub_add_cancel (by omega)]
    exact hp

theorem skip (k : Nat) (h : ∀ d n, pre d n → n < k → fail d n) :
    Spends pre (onReader (Reader.skip k) : Prog (δ × Reader) Unit) (fun _ d n => pre d (n + k)) fail := by
  intro d bs c hp
  by_cases hl : bs.length < k
  · refine ⟨[], bs, c, rfl, ?_⟩
    simp only [onReader, Prog.zoom, Reader.skip, BufferReader.skip, hl, if_true]
    exact ⟨trivial, fun a h => (by cases h), fun _ => h _ _ hp hl⟩
  · refine ⟨bs.take k, bs.drop k, c + k, (List.take_append_drop _ _).symm, ?_⟩
    simp only [onReader, Prog.zoom, Reader.skip, BufferReader.skip, hl, if_false]
    refine ⟨trivial, fun a h => ?_, fun h => absurd rfl (h _)⟩
    rw [List.length_drop, Nat.sub_add_cancel (by omega)]
    exact hp

theorem pure' (a : α) : Spends pre (pure a : Prog (δ × Reader) α) (fun x d n => x = a ∧ pre d n) fail :=
  fun _ bs c h => ⟨[], bs, c, rfl, rfl, fun _ e => ⟨(Res.ok.inj e).symm, h⟩, fun e => absurd rfl (e a)⟩

theorem modify {f : δ → δ} {ok : Unit → δ → Nat → Prop} (h : ∀ d n, pre d n → ok () (f d) n) :
    Spends pre (modifyObj f) ok fail :=
  fun _ bs c hp => ⟨[], bs, c, rfl, rfl, fun _ _ => h _ _ hp, fun e => absurd rfl (e ())⟩

theorem look : Spends pre (Eip.getObj : Prog (δ × Reader) δ) (fun x d n => x = d ∧ pre d n) fail :=
  fun d bs c h => ⟨[], bs, c, rfl, rfl, fun _ e => ⟨(Res.ok.inj e).symm, h⟩, fun e => absurd rfl (e d)⟩

theorem raise {e : Exn} {ok : α → δ → Nat → Prop} (h : ∀ d n, pre d n → fail d n) :
    Spends pre (Prog.raise e : Prog (δ × Reader) α) ok fail :=
  fun _ bs c hp => ⟨[], bs, c, rfl, rfl, fun a e => (by cases e), fun _ => h _ _ hp⟩

/-- Reading a member whose memory has `k` bytes. -/
theorem member {τ : Type} {cd : Codec τ} {k : Nat} (size : ∀ v, (cd.enc v).length = k) (getter : δ → τ) (setter : τ → δ → δ)
    (same : ∀ v d n, pre d n → pre (setter v d) n) (h : ∀ d n, pre d n → n < k → fail d n) :
    Spends pre (readMember cd getter setter) (fun _ d n => pre d (n + k)) fail := by
  refine bind (mid := fun x d n => x = d ∧ pre d n) look (fun o => ?_)
  refine bind (mid := fun bs d n => pre d (n + k)) ?_ (fun bs => modify (fun d n hp => same _ _ _ hp))
  refine (readInto (pre := pre) (cd.enc (getter o)) (fun d n hp hn => h _ _ hp (by rw [size] at hn; exact hn))).mono ?_ ?_ (fun _ _ h => h)
  · exact fun d n h => h.2
  · intro a d n hp
    rw [size] at hp
    exact hp.2

/-- `make_shared<SerializableBuffer>()` and reading `k` bytes. -/
theorem newBuffer (k : Nat) (h : ∀ d n, pre d n → n < k → fail d n) :
    Spends pre (readNewBuffer k : Prog (δ × Reader) SerializableBuffer)
      (fun sb d n => sb.data.length = k ∧ pre d (n + k)) fail := by
  intro d bs c hp
  by_cases hl : bs.length < k
  · refine ⟨[], bs, c, rfl, ?_⟩
    simp only [readNewBuffer, parseFresh, SerializableBuffer.deserializeLen, BufferReader.readBuffer, hl, if_true]
    exact ⟨trivial, fun a h => (by cases h), fun _ => h _ _ hp hl⟩
  · refine ⟨bs.take k, bs.drop k, c + k, (List.take_append_drop _ _).symm, ?_⟩
    simp only [readNewBuffer, parseFresh, SerializableBuffer.deserializeLen, BufferReader.readBuffer, hl, if_false]
    refine ⟨trivial, fun a h => ?_, fun h => absurd rfl (h _)⟩
    cases h
    refine ⟨by simp; omega, ?_⟩
    rw [List.length_drop, Nat.sub_add_cancel (by omega)]
    exact hp

/-- A local object that is parsed. -/
theorem fresh {τ : Type} {t : τ} {p : Prog (τ × Reader) Unit} (ok : δ → τ → Nat → Prop)
    (hp : ∀ d, Spends (fun t' n => t' = t ∧ pre d n) p (fun _ t' n => ok d t' n) (fun _ n => fail d n)) :
    Spends pre (parseFresh t p : Prog (δ × Reader) τ) (fun t' d n => ok d t' n) fail := by
  intro d bs c h
  obtain ⟨tk, r, c', e, e2, e3, e4⟩ := hp d t bs c ⟨rfl, h⟩
  refine ⟨tk, r, c', e, ?_⟩
  simp only [parseFresh]
  generalize p (t, .buffer ⟨bs, c⟩) = x at e2 e3 e4
  obtain ⟨res, t', rd⟩ := x
  cases e2
  cases res with
  | ok a => exact ⟨rfl, fun a h => by cases h; exact e3 () rfl, fun h => absurd rfl (h _)⟩
  | throw ex => exact ⟨rfl, fun a h => (by cases h), fun _ => e4 (fun a h => by cases h)⟩
  | ub u => exact ⟨rfl, fun a h => (by cases h), fun _ => e4 (fun a h => by cases h)⟩

/-- A part of the object that is parsed. -/
theorem part {τ : Type} {getter : δ → τ} {setter : τ → δ → δ} {p : Prog (τ × Reader) α} {ok : α → δ → Nat → Prop}
    (hp : ∀ d, Spends (fun t n => t = getter d ∧ pre d n) p (fun a t n => ok a (setter t d) n) (fun t n => fail (setter t d) n)) :
    Spends pre (onPart getter setter p) ok fail := by
  intro d bs c h
  obtain ⟨tk, r, c', e, e2, e3, e4⟩ := hp d (getter d) bs c ⟨rfl, h⟩
  refine ⟨tk, r, c', e, ?_⟩
  simp only [onPart, Prog.zoom]
  generalize p (getter d, .buffer ⟨bs, c⟩) = x at e2 e3 e4
  obtain ⟨res, t', rd⟩ := x
  cases e2
  exact ⟨rfl, e3, e4⟩

theorem local8 (h : ∀ d n, pre d n → n < 1 → fail d n) :
    Spends pre (readLocal8 : Prog (δ × Reader) UInt8) (fun _ d n => pre d (n + 1)) fail :=
  bind (readLocal 1 h) (fun _ => (pure' _).mono (fun _ _ h => h) (fun _ _ _ h => h.2) (fun _ _ h => h))

theorem local16 (h : ∀ d n, pre d n → n < 2 → fail d n) :
    Spends pre (readLocal16 : Prog (δ × Reader) UInt16) (fun _ d n => pre d (n + 2)) fail :=
  bind (readLocal 2 h) (fun _ => (pure' _).mono (fun _ _ h => h) (fun _ _ _ h => h.2) (fun _ _ h => h))

/-- What `Frugal` asks for: `A` is the identity, or 0 when what was kept before does not count. -/
theorem frugal {held : δ → Nat} {extra : Nat} {p : Prog (δ × Reader) Unit}
    (h : ∀ (A : Nat → Nat) (_ : A = id ∨ A = fun _ => 0) (k : Nat), Spends (fun d n => A (held d) + n ≤ k) p (fun _ d n => held d + n ≤ k)
      (fun d n => A (held d) + n ≤ k + extra)) : Frugal held extra p := by
  intro d input c
  obtain ⟨t, r, c', e, e2, e3, e4⟩ := h id (.inl rfl) (held d + input.length) d input c (Nat.le_refl _)
  obtain ⟨t', r', c'', f, f2, f3, -⟩ := h (fun _ => 0) (.inr rfl) input.length d input c (by simp)
  have hr : r' = r ∧ c'' = c' := by rw [e2] at f2; cases f2; exact ⟨rfl, rfl⟩
  obtain ⟨rfl, rfl⟩ := hr
  have hl := congrArg List.length e
  simp only [List.length_append] at hl
  refine ⟨t, r', c'', e, e2, ?_, ?_⟩
  · have h : held (p (d, .buffer ⟨input, c⟩)).2.1 + r'.length ≤ held d + input.length + extra := by
      by_cases hx : ∃ a, (p (d, .buffer ⟨input, c⟩)).1 = .ok a
      · obtain ⟨a, hx⟩ := hx
        exact Nat.le_trans (e3 a hx) (Nat.le_add_right _ _)
      · exact e4 (fun a ha => hx ⟨a, ha⟩)
    omega
  · intro hx
    have := f3 () hx
    omega

theorem atMost {A : Nat → Nat} (h : A = id ∨ A = fun _ => 0) (x : Nat) : A x ≤ x := by
  rcases h with rfl | rfl
  · exact Nat.le_refl x
  · exact Nat.zero_le x

end Spends

/-! ### The classes -/

@[simp] theorem kept_none : kept none = 0 := rfl
@[simp] theorem kept_raw (b : SerializableBuffer) : kept (some b.obj) = b.data.length := rfl

local macro "budget" : tactic => `(tactic| (intros; (first | trivial | omega | (dsimp only at *; omega))))

open Spends

theorem u8_size (v : UInt8) : (Codec.u8.enc v).length = 1 := le8_length v
theorem u16_size (v : UInt16) : (Codec.u16.enc v).length = 2 := le16_length v
theorem u32_size (v : UInt32) : (Codec.u32.enc v).length = 4 := le32_length v

/-- Reading members of an object that do not matter. -/
theorem Spends.members {δ τ α : Type} {cd : Codec τ} {m : Nat} (size : ∀ v, (cd.enc v).length = m) {getter : δ → τ}
    {setter : τ → δ → δ} {f : δ → Nat} {j k x : Nat} (same : ∀ v d, f (setter v d) = f d) {q : Unit → Prog (δ × Reader) α}
    {ok : α → δ → Nat → Prop} (hq : ∀ u, Spends (fun d n => f d + (n + (j + m)) ≤ k) (q u) ok (fun d n => f d + n ≤ k + x)) :
    Spends (fun d n => f d + (n + j) ≤ k) (readMember cd getter setter >>= q) ok (fun d n => f d + n ≤ k + x) := by
  refine Spends.bind (member size _ _ ?_ (by budget)) (fun u => (hq u).mono ?_ (fun _ _ _ h => h) (fun _ _ h => h))
  · intro v d n h
    rw [same]
    exact h
  · budget

theorem EncapHeader.spends (f k x : Nat) :
    Spends (fun _ n => f + n ≤ k) EncapHeader.deserialize (fun _ _ n => f + (n + 24) ≤ k) (fun _ n => f + n ≤ k + x) := by
  unfold EncapHeader.deserialize
  refine Spends.mono (pre := fun _ n => f + (n + 0) ≤ k) ?_ (by budget) (fun _ _ _ h => h) (fun _ _ h => h)
  refine Spends.members (f := fun _ => f) (j := 0) u16_size ?_ fun _ => ?_
  · exact fun _ _ => rfl
  refine Spends.members (f := fun _ => f) (j := 0 + 2) u16_size ?_ fun _ => ?_
  · exact fun _ _ => rfl
  refine Spends.members (f := fun _ => f) (j := 0 + 2 + 2) u32_size ?_ fun _ => ?_
  · exact fun _ _ => rfl
  refine Spends.members (f := fun _ => f) (j := 0 + 2 + 2 + 4) u32_size ?_ fun _ => ?_
  · exact fun _ _ => rfl
  refine Spends.members (f := fun _ => f) (j := 0 + 2 + 2 + 4 + 4) (m := 8) (fun v => Codec.context_lawful.len v) ?_ fun _ => ?_
  · exact fun _ _ => rfl
  exact (member u32_size _ _ (by budget) (by budget)).mono (fun _ _ h => h) (by budget) (fun _ _ h => h)

theorem EncapPacket.frugal : Frugal (fun p : EncapPacket => kept p.payload) 0 EncapPacket.deserialize := by
  refine Spends.frugal (fun A hA k => ?_)
  unfold EncapPacket.deserialize
  refine Spends.bind (mid := fun _ d n => A (kept d.payload) + (n + 24) ≤ k) (part (fun d => ?_)) (fun _ => ?_)
  · exact (EncapHeader.spends (A (kept d.payload)) k 0).mono (fun _ _ h => h.2) (by budget) (by budget)
  refine Spends.bind look (fun p => ?_)
  split
  · refine Spends.bind (newBuffer _ (by budget)) (fun sb => modify ?_)
    intro d n h
    dsimp only at h ⊢
    rw [kept_raw]
    omega
  · refine modify ?_
    intro d n h
    dsimp only at h ⊢
    rw [kept_none]
    omega

theorem EncapPacket.frugalSized (length : Nat) :
    Frugal (fun p : EncapPacket => kept p.payload) 0 (EncapPacket.deserializeSized length) := by
  refine Spends.frugal (fun A hA k => ?_)
  unfold EncapPacket.deserializeSized
  refine Spends.bind look (fun p => ?_)
  split
  · exact raise (by budget)
  refine Spends.bind (mid := fun _ d n => A (kept d.payload) + (n + 24) ≤ k) (part (fun d => ?_)) (fun _ => ?_)
  · exact (EncapHeader.spends (A (kept d.payload)) k 0).mono (fun _ _ h => h.2.2) (by budget) (by budget)
  refine Spends.bind look (fun p => ?_)
  split
  · exact raise (by budget)
  split
  · refine Spends.bind (mid := fun _ d n => A (kept d.payload) + n + 24 ≤ k) (modify ?_) (fun _ => ?_)
    · intro d n h
      have : kept (some SerializableBuffer.empty.obj) = 0 := rfl
      have := atMost hA 0
      simp only [kept_raw] at *
      simp only [SerializableBuffer.empty, List.length_nil] at *
      omega
    refine Spends.bind (newBuffer _ (by budget)) (fun sb => modify ?_)
    intro d n h
    dsimp only at h ⊢
    rw [kept_raw]
    omega
  · refine modify ?_
    intro d n h
    dsimp only at h ⊢
    rw [kept_none]
    omega

theorem SerializableBuffer.frugal : Frugal (fun b : SerializableBuffer => b.data.length) 0 SerializableBuffer.deserialize := by
  refine Spends.frugal (fun A hA k => ?_)
  have h0 := atMost hA
  unfold SerializableBuffer.deserialize
  refine Spends.bind look (fun b => ?_)
  refine Spends.bind (mid := fun bs d n => bs.length + n ≤ k) ?_ (fun bs => modify (by budget))
  refine (readInto (pre := fun d n => b = d ∧ A d.data.length + n ≤ k) b.data (fun _ _ h _ => h.2)).mono (fun _ _ h => h) ?_
    (fun _ _ h => h)
  intro bs d n h
  omega

theorem SerializableBuffer.frugalSized (m : Nat) :
    Frugal (fun b : SerializableBuffer => b.data.length) 0 (SerializableBuffer.deserializeLen m) := by
  intro d input c
  by_cases hl : input.length < m
  · refine ⟨[], input, c, rfl, ?_⟩
    simp only [SerializableBuffer.deserializeLen, BufferReader.readBuffer, hl, if_true]
    exact ⟨trivial, by simp, fun h => by cases h⟩
  · refine ⟨input.take m, input.drop m, c + m, (List.take_append_drop _ _).symm, ?_⟩
    simp only [SerializableBuffer.deserializeLen, BufferReader.readBuffer, hl, if_false]
    exact ⟨trivial, by simp, fun _ => Nat.le_refl _⟩

/-- The data of the item is a raw buffer. -/
def RawItem (i : CPFItem) : Prop := ∀ o, i.data = some o → ∃ bs, o.asBuffer = some bs ∧ o.getLength = bs.length

theorem CPFItem.spendsData {A : Nat → Nat} (hA : A = id ∨ A = fun _ => 0) (k : Nat) (len : UInt16) :
    Spends (fun d n => A (kept d.data) + (n + 4) ≤ k) (CPFItem.deserializeData len)
      (fun _ d n => RawItem d ∧ 4 + kept d.data + n ≤ k) (fun d n => A (kept d.data) + n ≤ k) := by
  unfold CPFItem.deserializeData
  split
  · refine Spends.bind (mid := fun _ d n => A (kept d.data) + (n + 4) ≤ k) (modify ?_) (fun _ => ?_)
    · intro d n h
      have := atMost hA 0
      simp only [kept_raw] at *
      simp only [SerializableBuffer.empty, List.length_nil] at *
      omega
    refine Spends.bind (newBuffer _ (by budget)) (fun sb => modify ?_)
    intro d n h
    refine ⟨?_, ?_⟩
    · rintro o ⟨⟩
      exact ⟨_, rfl, rfl⟩
    · dsimp only at h ⊢
      rw [kept_raw]
      omega
  · refine modify ?_
    intro d n h
    refine ⟨(fun o h => by cases h), ?_⟩
    dsimp only at h ⊢
    rw [kept_none]
    omega

theorem CPFItem.spends {A : Nat → Nat} (hA : A = id ∨ A = fun _ => 0) (k : Nat) :
    Spends (fun d n => A (kept d.data) + n ≤ k) CPFItem.deserialize
      (fun _ d n => RawItem d ∧ 4 + kept d.data + n ≤ k) (fun d n => A (kept d.data) + n ≤ k) := by
  unfold CPFItem.deserialize
  refine Spends.bind (mid := fun _ d n => A (kept d.data) + (n + 2) ≤ k)
    (member (pre := fun (d : CPFItem) n => A (kept d.data) + n ≤ k) (k := 2) u16_size _ _ ?_ (by budget)) (fun _ => ?_)
  · exact fun _ _ _ h => h
  refine Spends.bind (mid := fun _ d n => A (kept d.data) + (n + 4) ≤ k) ?_ (fun len => CPFItem.spendsData hA k len)
  exact (local16 (pre := fun (d : CPFItem) n => A (kept d.data) + (n + 2) ≤ k) (fail := fun d n => A (kept d.data) + n ≤ k)
    (by budget)).mono (fun _ _ h => h) (by budget) (by budget)

theorem CPFItem.frugal : Frugal (fun i : CPFItem => kept i.data) 0 CPFItem.deserialize :=
  Spends.frugal (fun _ hA k => (CPFItem.spends hA k).mono (fun _ _ h => h) (by budget) (by budget))

theorem CPFItem.frugalSized (m : Nat) : Frugal (fun i : CPFItem => kept i.data) 0 (CPFItem.deserializeSized m) := by
  refine Spends.frugal (fun A hA k => ?_)
  unfold CPFItem.deserializeSized
  split
  · exact raise (by budget)
  refine Spends.bind (mid := fun _ d n => A (kept d.data) + (n + 2) ≤ k)
    (member (pre := fun (d : CPFItem) n => A (kept d.data) + n ≤ k) (k := 2) u16_size _ _ ?_ (by budget)) (fun _ => ?_)
  · exact fun _ _ _ h => h
  refine Spends.bind (mid := fun _ d n => A (kept d.data) + (n + 4) ≤ k) ?_ (fun len => ?_)
  · exact (local16 (pre := fun (d : CPFItem) n => A (kept d.data) + (n + 2) ≤ k) (fail := fun d n => A (kept d.data) + n ≤ k)
    (by budget)).mono (fun _ _ h => h) (by budget) (by budget)
  split
  · exact raise (by budget)
  exact (CPFItem.spendsData hA k len).mono (fun _ _ h => h) (by budget) (by budget)

theorem keptItems_append (is : List CPFItem) (i : CPFItem) : keptItems ⟨is ++ [i]⟩ = keptItems ⟨is⟩ + (4 + kept i.data) := by
  simp [keptItems]

theorem CPFPacket.spendsItems (m k : Nat) :
    Spends (fun d n => (∀ i ∈ d.items, RawItem i) ∧ keptItems d + n ≤ k) (CPFPacket.deserializeItems m)
      (fun _ d n => (∀ i ∈ d.items, RawItem i) ∧ keptItems d + n ≤ k) (fun d n => keptItems d + n ≤ k) := by
  induction m with
  | zero => exact (pure' ()).mono (fun _ _ h => h) (fun _ _ _ h => h.2) (fun _ _ h => h)
  | succ m ih =>
    unfold CPFPacket.deserializeItems
    refine Spends.bind (fresh (fun d i n => (∀ i ∈ d.items, RawItem i) ∧ RawItem i ∧ keptItems d + (4 + kept i.data) + n ≤ k) ?_)
      (fun item => ?_)
    · intro d
      refine Spends.mono (pre := fun i n => ((∀ i ∈ d.items, RawItem i) ∧ keptItems d ≤ k) ∧ id (kept i.data) + n ≤ k - keptItems d)
        ?_ ?_ (fun _ _ _ h => h) (fun _ _ h => h)
      · intro i bs c h
        obtain ⟨t, r, c', e, e2, e3, e4⟩ := CPFItem.spends (.inl rfl) (k - keptItems d) i bs c h.2
        refine ⟨t, r, c', e, e2, fun a ha => ?_, fun ha => ?_⟩
        · have := e3 a ha
          exact ⟨h.1.1, this.1, by omega⟩
        · have := e4 ha
          omega
      · rintro i n ⟨rfl, h⟩
        have : kept CPFItem.null.data = 0 := rfl
        simp only [id]
        exact ⟨⟨h.1, by omega⟩, by omega⟩
    · refine Spends.bind (mid := fun _ d n => (∀ i ∈ d.items, RawItem i) ∧ keptItems d + n ≤ k) (modify ?_) (fun _ => ih)
      intro d n h
      refine ⟨?_, ?_⟩
      · intro i hi
        rcases List.mem_append.1 hi with hi | hi
        · exact h.1 i hi
        · cases List.mem_singleton.1 hi
          exact h.2.1
      · rw [keptItems_append]
        exact h.2.2

theorem CPFPacket.spends {A : Nat → Nat} (hA : A = id ∨ A = fun _ => 0) (k : Nat) :
    Spends (fun d n => A (keptItems d) + n ≤ k) CPFPacket.deserialize
      (fun _ d n => (∀ i ∈ d.items, RawItem i) ∧ keptItems d + n ≤ k) (fun d n => A (keptItems d) + n ≤ k) := by
  unfold CPFPacket.deserialize
  refine Spends.bind (mid := fun _ d n => (∀ i ∈ d.items, RawItem i) ∧ keptItems d + n ≤ k) (modify ?_) (fun _ => ?_)
  · intro d n h
    have : keptItems ⟨[]⟩ = 0 := rfl
    exact ⟨fun i hi => (List.not_mem_nil hi).elim, by omega⟩
  have h0 := atMost hA
  refine Spends.bind (local16 ?_) (fun m => ?_)
  · intro d n h _
    have := h0 (keptItems d)
    omega
  · refine (CPFPacket.spendsItems m.toNat k).mono ?_ (fun _ _ _ h => h) ?_
    · exact fun d n h => ⟨h.1, by omega⟩
    · intro d n h
      have := h0 (keptItems d)
      omega

theorem CPFPacket.frugal : Frugal keptItems 0 CPFPacket.deserialize :=
  Spends.frugal (fun _ hA k => (CPFPacket.spends hA k).mono (fun _ _ h => h) (by budget) (by budget))

/-- Reading the data of a message router response. -/
theorem Spends.data {f : MessageRouterResponse → Nat} {j k : Nat} (len : Int) :
    Spends (fun d n => f d + (n + j) ≤ k) (MessageRouterResponse.readData len)
      (fun a d n => f d + (n + (j + kept a)) ≤ k) (fun d n => f d + n ≤ k) := by
  unfold MessageRouterResponse.readData
  split
  · refine Spends.bind (newBuffer _ (by budget)) (fun sb => (pure' _).mono (fun _ _ h => h) ?_ (fun _ _ h => h))
    rintro a d n ⟨rfl, h⟩
    rw [kept_raw]
    omega
  · refine (pure' _).mono (fun _ _ h => h) ?_ (fun _ _ h => h)
    rintro a d n ⟨rfl, h⟩
    rw [kept_none]
    omega

theorem MessageRouterResponse.frugal (length : Nat) : Frugal keptReply 0 (MessageRouterResponse.deserializeSized length) := by
  refine Spends.frugal (fun A hA k => ?_)
  unfold MessageRouterResponse.deserializeSized
  refine Spends.mono (pre := fun d n => A (keptReply d) + (n + 0) ≤ k) ?_ (by budget) (fun _ _ _ h => h) (fun _ _ h => h)
  refine Spends.members (x := 0) (f := fun d : MessageRouterResponse => A (keptReply d)) (j := 0) u8_size ?_ fun _ => ?_
  · exact fun _ _ => rfl
  refine Spends.members (x := 0) (f := fun d : MessageRouterResponse => A (keptReply d)) (j := 0 + 1) u8_size ?_ fun _ => ?_
  · exact fun _ _ => rfl
  refine Spends.members (x := 0) (f := fun d : MessageRouterResponse => A (keptReply d)) (j := 0 + 1 + 1) u8_size ?_ fun _ => ?_
  · exact fun _ _ => rfl
  refine Spends.bind (local8 (by budget)) (fun len => ?_)
  refine Spends.bind (mid := fun a d n => A (keptReply d) + (n + (4 + kept a)) ≤ k) ?_ (fun a => ?_)
  · exact (Spends.data (f := fun d : MessageRouterResponse => A (keptReply d)) (j := 4) (k := k) _).mono (by budget) (fun _ _ _ h => h) (by budget)
  have hR : ∀ d, A (keptReply d) ≤ A (kept d.responseData) + kept d.additionalStatus := by
    intro d
    rcases hA with rfl | rfl
    · simp only [keptReply, id]
      omega
    · exact Nat.zero_le _
  have hS : ∀ d, A (kept d.responseData) ≤ A (keptReply d) := by
    intro d
    rcases hA with rfl | rfl
    · simp only [keptReply, id]
      omega
    · exact Nat.zero_le _
  refine Spends.bind (mid := fun _ d n => A (kept d.responseData) + kept d.additionalStatus + (n + 4) ≤ k) (modify ?_) (fun _ => ?_)
  · intro d n h
    have := hS d
    dsimp only
    omega
  refine Spends.bind (mid := fun _ d n => A (kept d.responseData) + kept d.additionalStatus + (n + 4) ≤ k) ?_ (fun count => ?_)
  · exact fun d bs c h => ⟨[], bs, c, rfl, rfl, fun _ _ => h, fun e => absurd rfl (e _)⟩
  refine Spends.bind (mid := fun a d n => kept d.additionalStatus + (n + (4 + kept a)) ≤ k) ?_ (fun a => modify ?_)
  · refine (Spends.data (f := fun d => A (kept d.responseData) + kept d.additionalStatus) (j := 4) (k := k) _).mono (fun _ _ h => h)
      (by budget) ?_
    intro d n h
    have := hR d
    omega
  · intro d n h
    simp only [keptReply]
    omega

theorem ForwardOpenSuccess.frugal : Frugal (fun d : ForwardOpenSuccess => kept d.responseData) 0 ForwardOpenSuccess.deserialize := by
  refine Spends.frugal (fun A hA k => ?_)
  unfold ForwardOpenSuccess.deserialize
  refine Spends.mono (pre := fun (d : ForwardOpenSuccess) n => A (kept d.responseData) + (n + 0) ≤ k) ?_ (by budget) (fun _ _ _ h => h) (fun _ _ h => h)
  refine Spends.members (x := 0) (f := fun d : ForwardOpenSuccess => A (kept d.responseData)) (j := 0) u32_size ?_ fun _ => ?_
  · exact fun _ _ => rfl
  refine Spends.members (x := 0) (f := fun d : ForwardOpenSuccess => A (kept d.responseData)) (j := 0 + 4) u32_size ?_ fun _ => ?_
  · exact fun _ _ => rfl
  refine Spends.members (x := 0) (f := fun d : ForwardOpenSuccess => A (kept d.responseData)) (j := 0 + 4 + 4) u16_size ?_ fun _ => ?_
  · exact fun _ _ => rfl
  refine Spends.members (x := 0) (f := fun d : ForwardOpenSuccess => A (kept d.responseData)) (j := 0 + 4 + 4 + 2) u16_size ?_ fun _ => ?_
  · exact fun _ _ => rfl
  refine Spends.members (x := 0) (f := fun d : ForwardOpenSuccess => A (kept d.responseData)) (j := 0 + 4 + 4 + 2 + 2) u32_size ?_ fun _ => ?_
  · exact fun _ _ => rfl
  refine Spends.members (x := 0) (f := fun d : ForwardOpenSuccess => A (kept d.responseData)) (j := 0 + 4 + 4 + 2 + 2 + 4) u32_size ?_ fun _ => ?_
  · exact fun _ _ => rfl
  refine Spends.members (x := 0) (f := fun d : ForwardOpenSuccess => A (kept d.responseData)) (j := 0 + 4 + 4 + 2 + 2 + 4 + 4) u32_size ?_ fun _ => ?_
  · exact fun _ _ => rfl
  refine Spends.bind (local8 (by budget)) (fun len => Spends.bind (skip 1 (by budget)) (fun _ => ?_))
  split
  · refine Spends.bind (newBuffer _ (by budget)) (fun sb => modify ?_)
    intro d n h
    dsimp only at h ⊢
    rw [kept_raw]
    omega
  · refine modify ?_
    intro d n h
    dsimp only at h ⊢
    rw [kept_none]
    omega

theorem ForwardCloseSuccess.frugal : Frugal (fun d : ForwardCloseSuccess => kept d.responseData) 0 ForwardCloseSuccess.deserialize := by
  refine Spends.frugal (fun A hA k => ?_)
  unfold ForwardCloseSuccess.deserialize
  refine Spends.mono (pre := fun (d : ForwardCloseSuccess) n => A (kept d.responseData) + (n + 0) ≤ k) ?_ (by budget) (fun _ _ _ h => h) (fun _ _ h => h)
  refine Spends.members (x := 0) (f := fun d : ForwardCloseSuccess => A (kept d.responseData)) (j := 0) u16_size ?_ fun _ => ?_
  · exact fun _ _ => rfl
  refine Spends.members (x := 0) (f := fun d : ForwardCloseSuccess => A (kept d.responseData)) (j := 0 + 2) u16_size ?_ fun _ => ?_
  · exact fun _ _ => rfl
  refine Spends.members (x := 0) (f := fun d : ForwardCloseSuccess => A (kept d.responseData)) (j := 0 + 2 + 2) u32_size ?_ fun _ => ?_
  · exact fun _ _ => rfl
  refine Spends.bind (local8 (by budget)) (fun len => Spends.bind (skip 1 (by budget)) (fun _ => ?_))
  split
  · refine Spends.bind (newBuffer _ (by budget)) (fun sb => modify ?_)
    intro d n h
    dsimp only at h ⊢
    rw [kept_raw]
    omega
  · refine modify ?_
    intro d n h
    dsimp only at h ⊢
    rw [kept_none]
    omega

theorem IdentityItemData.frugal : Frugal (fun d : IdentityItemData => d.productName.length) 255 IdentityItemData.deserialize := by
  refine Spends.frugal (fun A hA k => ?_)
  have h0 := atMost hA
  unfold IdentityItemData.deserialize
  refine Spends.mono (pre := fun (d : IdentityItemData) n => A d.productName.length + (n + 0) ≤ k) ?_ (by budget) (fun _ _ _ h => h) (fun _ _ h => h)
  refine Spends.members (f := fun d : IdentityItemData => A d.productName.length) (j := 0) u16_size ?_ fun _ => ?_
  · exact fun _ _ => rfl
  refine Spends.members (f := fun d : IdentityItemData => A d.productName.length) (j := 0 + 2) (m := 16) (fun v => Codec.sockaddr_lawful.len v) ?_ fun _ => ?_
  · exact fun _ _ => rfl
  refine Spends.members (f := fun d : IdentityItemData => A d.productName.length) (j := 0 + 2 + 16) u16_size ?_ fun _ => ?_
  · exact fun _ _ => rfl
  refine Spends.members (f := fun d : IdentityItemData => A d.productName.length) (j := 0 + 2 + 16 + 2) u16_size ?_ fun _ => ?_
  · exact fun _ _ => rfl
  refine Spends.members (f := fun d : IdentityItemData => A d.productName.length) (j := 0 + 2 + 16 + 2 + 2) u16_size ?_ fun _ => ?_
  · exact fun _ _ => rfl
  refine Spends.members (f := fun d : IdentityItemData => A d.productName.length) (j := 0 + 2 + 16 + 2 + 2 + 2) (m := 2) (fun v => Codec.revision_lawful.len v) ?_ fun _ => ?_
  · exact fun _ _ => rfl
  refine Spends.members (f := fun d : IdentityItemData => A d.productName.length) (j := 0 + 2 + 16 + 2 + 2 + 2 + 2) u16_size ?_ fun _ => ?_
  · exact fun _ _ => rfl
  refine Spends.members (f := fun d : IdentityItemData => A d.productName.length) (j := 0 + 2 + 16 + 2 + 2 + 2 + 2 + 2) u32_size ?_ fun _ => ?_
  · exact fun _ _ => rfl
  refine Spends.bind (local8 (by budget)) (fun len => ?_)
  refine Spends.bind (mid := fun _ d n => d.productName.length ≤ 255 ∧ n + 33 ≤ k) (modify ?_) (fun _ => ?_)
  · intro d n h
    have := len.toNat_lt
    refine ⟨?_, by omega⟩
    simp only [IdentityItemData.resize, List.length_append, List.length_take, List.length_replicate]
    omega
  refine Spends.bind look (fun d => ?_)
  refine Spends.bind (mid := fun bs d n => bs.length + n + 33 ≤ k) ?_ (fun bs => ?_)
  · refine (readInto (pre := fun d n => d.productName.length ≤ 255 ∧ n + 33 ≤ k) (fail := fun (d : IdentityItemData) n => A d.productName.length + n ≤ k + 255)
      d.productName ?_).mono (fun _ _ h => h.2) (by budget) (fun _ _ h => h)
    intro d n h _
    have := h0 d.productName.length
    omega
  refine Spends.bind (mid := fun _ d n => d.productName.length + n + 33 ≤ k) (modify (by budget)) (fun _ => ?_)
  refine (member (pre := fun (d : IdentityItemData) n => d.productName.length + n + 33 ≤ k) (k := 1)
    (fail := fun (d : IdentityItemData) n => A d.productName.length + n ≤ k + 255) u8_size _ _ ?_ ?_).mono (fun _ _ h => h) (by budget) (fun _ _ h => h)
  · exact fun _ _ _ h => h
  · intro d n h _
    have := h0 d.productName.length
    omega

theorem MessageRouterResponse.from (bs : Bytes) (m : Nat) (d : MessageRouterResponse) :
    keptReply (deserializeFrom MessageRouterResponse.cls bs m d).2 ≤ keptReply d + bs.length ∧
    ((deserializeFrom MessageRouterResponse.cls bs m d).1 = .ok () →
      keptReply (deserializeFrom MessageRouterResponse.cls bs m d).2 ≤ bs.length) := by
  obtain ⟨t, r, c', e, e2, e3, e4⟩ := MessageRouterResponse.frugal m d bs 0
  have hl := congrArg List.length e
  simp only [List.length_append] at hl
  have ed : deserializeFrom MessageRouterResponse.cls bs m d =
      ((MessageRouterResponse.deserializeSized m (d, .buffer ⟨bs, 0⟩)).1,
        (MessageRouterResponse.deserializeSized m (d, .buffer ⟨bs, 0⟩)).2.1) := rfl
  rw [ed]
  exact ⟨by dsimp only; omega, fun h => by have := e4 h; dsimp only; omega⟩

private theorem le_sum {x : Nat} {l : List Nat} (h : x ∈ l) : x ≤ l.sum := by
  induction l with
  | nil => cases h
  | cons y l ih =>
    rw [List.sum_cons]
    rcases List.mem_cons.1 h with rfl | h
    · omega
    · have := ih h
      omega

theorem kept_le_items {p : CPFPacket} {i : CPFItem} {j : Nat} (h : p.items[j]? = some i) : kept i.data ≤ keptItems p := by
  have hm : i ∈ p.items := List.mem_of_getElem? h
  unfold keptItems
  have : 4 + kept i.data ≤ (p.items.map (fun i => 4 + kept i.data)).sum := le_sum (List.mem_map.2 ⟨i, hm, rfl⟩)
  omega

theorem RRDataResponse.setData_kept (i : CPFItem) (raw : RawItem i) (d : RRDataResponse) :
    keptReply (RRDataResponse.setData i d).2.mr ≤ keptReply d.mr + kept i.data ∧
    ((RRDataResponse.setData i d).1 = .ok () → keptReply (RRDataResponse.setData i d).2.mr ≤ kept i.data) := by
  cases hd : i.data with
  | none =>
    have e : RRDataResponse.setData i d = (.ub .nullDeref, d) := by
      simp only [RRDataResponse.setData, CPFItem.getDataAs, hd]
      rfl
    rw [e]
    exact ⟨Nat.le_add_right _ _, fun h => by cases h⟩
  | some o =>
    obtain ⟨b, hb, hg⟩ := raw o hd
    have e : copySerializable MessageRouterResponse.cls o = deserializeFrom MessageRouterResponse.cls b o.getLength := by
      unfold copySerializable
      rw [hb]
      rfl
    have hf := MessageRouterResponse.from b o.getLength d.mr
    have hkb : kept (some o) = b.length := by
      unfold kept
      dsimp only
      rw [hb]
    have e2 : RRDataResponse.setData i d = ((deserializeFrom MessageRouterResponse.cls b o.getLength d.mr).1,
        { d with mr := (deserializeFrom MessageRouterResponse.cls b o.getLength d.mr).2 }) := by
      unfold RRDataResponse.setData CPFItem.getDataAs
      rw [hd]
      dsimp only
      rw [e]
      rfl
    rw [e2, hkb]
    exact hf

theorem RRData.spends {δ : Type} {getBase : δ → RRData} {setBase : RRData → δ → δ} {setData : CPFItem → Prog δ Unit} {f : δ → Nat}
    (same : ∀ b d, f (setBase b d) = f d)
    (set : ∀ i, RawItem i → ∀ d, f (setData i d).2 ≤ f d + kept i.data ∧ ((setData i d).1 = .ok () → f (setData i d).2 ≤ kept i.data))
    {A : Nat → Nat} (hA : A = id ∨ A = fun _ => 0) (k : Nat) :
    Spends (fun d n => A (f d) + n ≤ k) (RRData.deserialize getBase setBase setData) (fun _ d n => f d + n ≤ k)
      (fun d n => A (f d) + n ≤ k) := by
  have h0 := atMost hA
  unfold RRData.deserialize
  refine Spends.bind (mid := fun _ d n => A (f d) + (n + 4) ≤ k) (part (fun d => ?_)) (fun _ => ?_)
  · refine (member (pre := fun (_ : RRData) n => A (f d) + n ≤ k) (k := 4)
      (fail := fun _ n => A (f d) + n ≤ k) u32_size _ _ ?_ ?_).mono (fun _ _ h => h.2) ?_ ?_
    · exact fun _ _ _ h => h
    · budget
    · intro _ b n h
      rw [same]
      exact h
    · intro b n h
      rw [same]
      exact h
  refine Spends.bind (mid := fun _ d n => A (f d) + (n + 6) ≤ k) (part (fun d => ?_)) (fun _ => ?_)
  · refine (member (pre := fun (_ : RRData) n => A (f d) + (n + 4) ≤ k) (k := 2)
      (fail := fun _ n => A (f d) + n ≤ k) u16_size _ _ ?_ ?_).mono (fun _ _ h => h.2) ?_ ?_
    · exact fun _ _ _ h => h
    · budget
    · intro _ b n h
      rw [same]
      omega
    · intro b n h
      rw [same]
      exact h
  refine Spends.bind (fresh (fun d p n => (∀ i ∈ p.items, RawItem i) ∧ A (f d) + keptItems p + n ≤ k) (fun d => ?_)) (fun p => ?_)
  · intro p bs c h
    obtain ⟨rfl, h⟩ := h
    obtain ⟨t, r, c', e, e2, e3, e4⟩ := CPFPacket.spends (.inl rfl) bs.length ⟨[]⟩ bs c (by simp [keptItems])
    refine ⟨t, r, c', e, e2, fun a ha => ?_, fun ha => ?_⟩
    · have := e3 a ha
      exact ⟨this.1, by omega⟩
    · have := e4 ha
      omega
  split
  · exact raise (by budget)
  split
  · rename_i i0 i1 hi0 hi1
    split
    · exact raise (by budget)
    split
    · exact raise (by budget)
    split
    · exact raise (by budget)
    intro d bs c h
    refine ⟨[], bs, c, rfl, rfl, ?_⟩
    have hs := set i1 (h.1 i1 (List.mem_of_getElem? hi1)) d
    have hk := kept_le_items hi1
    simp only [Prog.zoom]
    generalize setData i1 d = x at hs
    obtain ⟨res, m⟩ := x
    refine ⟨fun a ha => ?_, fun _ => ?_⟩
    · have := hs.2 ha
      dsimp only at this ⊢
      omega
    · dsimp only at hs ⊢
      rcases hA with rfl | rfl
      · simp only [id] at h ⊢
        omega
      · dsimp only at h ⊢
        omega
  · exact raise (by budget)

private theorem RRDataResponse.deserialize_eq : RRDataResponse.cls.deserialize =
    RRData.deserialize (fun d : RRDataResponse => d.base) (fun b r => { r with base := b }) RRDataResponse.setData := rfl

theorem RRDataResponse.frugal : Frugal (fun d : RRDataResponse => keptReply d.mr) 0 RRDataResponse.cls.deserialize := by
  rw [RRDataResponse.deserialize_eq]
  refine Spends.frugal (fun A hA k => ?_)
  have h := RRData.spends (getBase := fun d : RRDataResponse => d.base) (setBase := fun b r => { r with base := b })
    (f := fun d : RRDataResponse => keptReply d.mr) (fun _ _ => rfl) RRDataResponse.setData_kept hA k
  exact h.mono (fun _ _ h => h) (fun _ _ _ h => h) (fun _ _ h => h)

end Eip
