import Verif.Lemmas.Rpc
/-
Which exceptions the parsers throw, with their texts.
-/
namespace Eip
open Spec

/-- Every exception of `p` has the property. -/
def Throws {σ α : Type} (P : Exn → Prop) (p : Prog σ α) : Prop := ∀ s e s', p s = (.throw e, s') → P e

/-- The exception of a `BufferReader` that ends too early. -/
def tooSmall : Exn := lengthError "Buffer too small to deserialize value"

namespace Throws
variable {σ τ α β δ : Type} {P : Exn → Prop}

theorem pure (a : α) : Throws P (Pure.pure a : Prog σ α) := by
  intro s e s' h
  cases h

theorem raise {e : Exn} (he : P e) : Throws P (Prog.raise e : Prog σ α) := by
  intro s e' s' h
  cases h
  exact he

theorem undef (u : UB) : Throws P (Prog.undef u : Prog σ α) := by
  intro s e s' h
  cases h

theorem bind {p : Prog σ α} {f : α → Prog σ β} (hp : Throws P p) (hf : ∀ a, Throws P (f a)) : Throws P (p >>= f) := by
  intro s e s' h
  rcases hq : p s with ⟨(a | e' | u), s1⟩
  · rw [Prog.bind_ok hq] at h
    exact hf a _ _ _ h
  · rw [Prog.bind_throw hq] at h
    cases h
    exact hp _ _ _ hq
  · rw [Prog.bind_ub hq] at h
    cases h

theorem ite {c : Prop} [Decidable c] {p q : Prog σ α} (hp : Throws P p) (hq : Throws P q) :
    Throws P (if c then p else q) := by
  by_cases h : c
  · rw [if_pos h]; exact hp
  · rw [if_neg h]; exact hq

theorem zoom {g : σ → τ} {st : τ → σ → σ} {p : Prog τ α} (hp : Throws P p) : Throws P (Prog.zoom g st p) := by
  intro s e s' h
  rw [Prog.zoom] at h
  rcases hq : p (g s) with ⟨(a | e' | u), t⟩ <;> rw [hq] at h <;> cases h
  exact hp _ _ _ hq

theorem getObj : Throws P (Eip.getObj : Prog (δ × Reader) δ) := by
  intro s e s' h
  cases h

theorem modifyObj (f : δ → δ) : Throws P (Eip.modifyObj f) := by
  intro s e s' h
  cases h

theorem fresh {t : τ} {p : Prog (τ × Reader) Unit} (hp : Throws P p) : Throws P (parseFresh t p : Prog (δ × Reader) τ) := by
  rintro ⟨d, r⟩ e s' h
  rw [parseFresh] at h
  rcases hq : p (t, r) with ⟨(a | e' | u), t', r'⟩ <;> rw [hq] at h <;> cases h
  exact hp _ _ _ hq

theorem readBuffer (n : Nat) : Throws (· = tooSmall) (BufferReader.readBuffer n) := by
  intro s e s' h
  rw [BufferReader.readBuffer] at h
  split at h <;> cases h
  rfl

theorem readStream (old : Bytes) : Throws P (StreamReader.readInto old) := by
  intro s e s' h
  rw [StreamReader.readInto] at h
  dsimp only at h
  split at h
  · cases h
  · split at h <;> cases h

theorem readInto (old : Bytes) : Throws (· = tooSmall) (Reader.readInto old) := by
  rintro (br | sr) e s' h
  · rcases hq : BufferReader.readBuffer old.length br with ⟨x, br'⟩
    simp only [Reader.readInto, hq] at h
    cases h
    exact readBuffer _ _ _ _ hq
  · rcases hq : StreamReader.readInto old sr with ⟨x, br'⟩
    simp only [Reader.readInto, hq] at h
    cases h
    exact readStream (P := (· = tooSmall)) _ _ _ _ hq

theorem readLocal (n : Nat) : Throws (· = tooSmall) (Reader.readLocal n) := by
  rintro (br | sr) e s' h
  · rcases hq : BufferReader.readBuffer n br with ⟨x, br'⟩
    simp only [Reader.readLocal, hq] at h
    cases h
    exact readBuffer _ _ _ _ hq
  · rcases hq : StreamReader.readInto (List.replicate n 0) sr with ⟨x, br'⟩
    simp only [Reader.readLocal, hq] at h
    split at h <;> cases h
    exact readStream (P := (· = tooSmall)) _ _ _ _ hq

theorem member {c : Codec τ} {g : δ → τ} {s : τ → δ → δ} : Throws (· = tooSmall) (readMember c g s) :=
  bind getObj fun _ => bind (zoom (readInto _)) fun _ => modifyObj _

theorem local8 : Throws (· = tooSmall) (readLocal8 : Prog (δ × Reader) UInt8) := bind (zoom (readLocal 1)) fun _ => pure _

theorem local16 : Throws (· = tooSmall) (readLocal16 : Prog (δ × Reader) UInt16) := bind (zoom (readLocal 2)) fun _ => pure _

theorem bufferLen (n : Nat) : Throws (· = tooSmall) (SerializableBuffer.deserializeLen n) := by
  rintro ⟨b, (br | sr)⟩ e s' h
  · rw [SerializableBuffer.deserializeLen] at h
    rcases hq : BufferReader.readBuffer n br with ⟨(x | x | x), br'⟩ <;> simp only [hq] at h <;> cases h
    exact readBuffer _ _ _ _ hq
  · rw [SerializableBuffer.deserializeLen] at h
    rcases hq : StreamReader.readInto (if n ≠ b.data.length then List.replicate n sr.junk else b.data) sr with
      ⟨(x | x | x), br'⟩ <;> rw [hq] at h <;> cases h
    exact readStream (P := (· = tooSmall)) _ _ _ _ hq

theorem newBuffer (n : Nat) : Throws (· = tooSmall) (readNewBuffer n : Prog (δ × Reader) SerializableBuffer) :=
  fresh (bufferLen n)

theorem header : Throws (· = tooSmall) EncapHeader.deserialize :=
  bind member fun _ => bind member fun _ => bind member fun _ => bind member fun _ =>
    bind member fun _ => member

theorem packet : Throws (· = tooSmall) EncapPacket.deserialize :=
  bind (zoom header) fun _ => bind getObj fun _ => ite (bind (newBuffer _) fun _ => modifyObj _) (modifyObj _)

theorem item : Throws (· = tooSmall) CPFItem.deserialize :=
  bind member fun _ => bind local16 fun _ =>
    ite (bind (modifyObj _) fun _ => bind (newBuffer _) fun _ => modifyObj _) (modifyObj _)

theorem items : (n : Nat) → Throws (· = tooSmall) (CPFPacket.deserializeItems n)
  | 0 => pure ()
  | n + 1 => bind (fresh item) fun _ => bind (modifyObj _) fun _ => items n

theorem cpf : Throws (· = tooSmall) CPFPacket.deserialize :=
  bind (modifyObj _) fun _ => bind local16 fun _ => items _

theorem register : Throws (· = tooSmall) RegisterSessionData.deserialize := bind member fun _ => member

theorem identity : Throws (· = tooSmall) IdentityItemData.deserialize :=
  bind member fun _ => bind member fun _ => bind member fun _ => bind member fun _ =>
  bind member fun _ => bind member fun _ => bind member fun _ => bind member fun _ =>
  bind local8 fun _ => bind (modifyObj _) fun _ => bind getObj fun _ => bind (zoom (readInto _)) fun _ =>
  bind (modifyObj _) fun _ => member

theorem data (n : Int) : Throws (· = tooSmall) (MessageRouterResponse.readData n : Prog (δ × Reader) (Option Obj)) :=
  ite (bind (newBuffer _) fun _ => pure _) (pure _)

theorem message (n : Nat) : Throws (· = tooSmall) (MessageRouterResponse.deserializeSized n) :=
  bind member fun _ => bind member fun _ => bind member fun _ => bind local8 fun _ =>
  bind (data _) fun _ => bind (modifyObj _) fun _ =>
  bind (fun s e s' h => by cases h) fun _ => bind (data _) fun _ => modifyObj _

end Throws

/-- Parsing a raw buffer throws what the parser of the class throws. -/
theorem Throws.parseFrom {δ : Type} {P : Exn → Prop} {c : Class δ} (h : ∀ n, Throws P (c.runLen n)) (buf : Bytes) (n : Nat) :
    Throws P (deserializeFrom c buf n) := by
  intro d e d' he
  rw [deserializeFrom] at he
  rcases hq : c.runLen n (d, .buffer (BufferReader.new buf)) with ⟨r, d1, r1⟩
  rw [hq] at he
  cases he
  exact h n _ _ _ hq

theorem RRDataResponse.setData_throws {t : UInt16} {body : Bytes} (hne : body ≠ []) :
    Throws (· = tooSmall) (RRDataResponse.setData ⟨t, rawData body⟩) := by
  intro d e d' h
  rw [RRDataResponse.setData_eq d t hne] at h
  rcases hq : MessageRouterResponse.deserializeSized body.length (d.mr, .buffer ⟨body, 0⟩) with ⟨r, m, r1⟩
  rw [hq] at h
  cases h
  exact Throws.message _ _ _ _ hq

theorem Throws.rrFront {δ : Type} (getBase : δ → RRData) (setBase : RRData → δ → δ) :
    Throws (· = tooSmall) (Eip.rrFront getBase setBase) :=
  bind (zoom member) fun _ => bind (zoom member) fun _ => fresh cpf

/-- `RRData::deserialize` on RR data that ends early. -/
theorem RRData.deserialize_cut {δ : Type} (getBase : δ → RRData) (setBase : RRData → δ → δ)
    (setData : CPFItem → Prog δ Unit) (hg : ∀ b d, getBase (setBase b d) = b)
    (hs : ∀ b b' d, setBase b (setBase b' d) = setBase b d) (d : δ) (handle : UInt32) (timeout : UInt16)
    {l : List (UInt16 × Bytes)} (hl : CpfOk l) (cut missing : Bytes) (hm : missing ≠ [])
    (e : rrBytes handle timeout l = cut ++ missing) (c : Nat) :
    ∃ d' r', RRData.deserialize getBase setBase setData (d, .buffer ⟨cut, c⟩) = (.throw tooSmall, (d', .buffer r')) := by
  obtain ⟨what, d', r', h⟩ := (rrFront_parses getBase setBase hg hs d handle timeout hl c).short cut missing e hm
  have hw : lengthError what = tooSmall := Throws.rrFront getBase setBase _ _ _ h
  refine ⟨d', r', ?_⟩
  rw [RRData.deserialize_split, Prog.bind_throw h, hw]

end Eip
