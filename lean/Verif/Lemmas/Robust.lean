import Verif.Lemmas.Uniform
import Verif.Lemmas.Payload
import Verif.Model.Host
import Verif.Spec.Packet
/-
Lemmas for C70, C74, C79 and C80.
-/
namespace Eip
open Spec

/-- On any stream `p` succeeds; it needs `n` bytes, and afterwards the stream is good exactly if they were there. -/
def Flags {δ α : Type} (p : Prog (δ × Reader) α) (n : Nat) : Prop :=
  ∀ (d : δ) (sr : StreamReader), ∃ x d' sr', p (d, .stream sr) = (.ok x, (d', .stream sr')) ∧
    (sr'.good = true ↔ (sr.good = true ∧ n ≤ (sr.data.drop sr.pos).length)) ∧
    (sr'.good = true → sr'.data = sr.data ∧ sr'.pos = sr.pos + n)

theorem Flags.bind {δ α β : Type} {p : Prog (δ × Reader) α} {f : α → Prog (δ × Reader) β} {m n : Nat}
    (hp : Flags p m) (hf : ∀ x, Flags (f x) n) : Flags (p >>= f) (m + n) := by
  intro d sr
  obtain ⟨x, d1, s1, e1, g1, q1⟩ := hp d sr
  obtain ⟨y, d2, s2, e2, g2, q2⟩ := hf x d1 s1
  refine ⟨y, d2, s2, by rw [Prog.bind_ok e1, e2], ?_, ?_⟩
  · rw [g2, g1]
    constructor
    · rintro ⟨⟨hg, hm⟩, hn⟩
      obtain ⟨hd, hpos⟩ := q1 (g1.mpr ⟨hg, hm⟩)
      rw [hd, hpos] at hn
      simp only [List.length_drop] at hm hn ⊢
      exact ⟨hg, by omega⟩
    · rintro ⟨hg, hmn⟩
      have hm : m ≤ (sr.data.drop sr.pos).length := by omega
      obtain ⟨hd, hpos⟩ := q1 (g1.mpr ⟨hg, hm⟩)
      refine ⟨⟨hg, hm⟩, ?_⟩
      rw [hd, hpos]
      simp only [List.length_drop] at hmn ⊢
      omega
  · intro hg2
    obtain ⟨hd2, hp2⟩ := q2 hg2
    obtain ⟨hd1, hp1⟩ := q1 (g2.mp hg2).1
    exact ⟨by rw [hd2, hd1], by rw [hp2, hp1]; omega⟩

theorem Flags.member {δ τ : Type} {cd : Codec τ} {n : Nat} (hn : ∀ v, (cd.enc v).length = n) (getter : δ → τ)
    (setter : τ → δ → δ) : Flags (readMember cd getter setter) n := by
  intro d sr
  have key : ∃ bs sr', StreamReader.readInto (cd.enc (getter d)) sr = (.ok bs, sr') ∧
      (sr'.good = true ↔ (sr.good = true ∧ n ≤ (sr.data.drop sr.pos).length)) ∧
      (sr'.good = true → sr'.data = sr.data ∧ sr'.pos = sr.pos + n) := by
    unfold StreamReader.readInto
    split
    · next h => exact ⟨_, _, rfl, by simp [h], by simp [h]⟩
    · next h =>
      simp only [hn]
      split
      · next h2 => exact ⟨_, _, rfl, by simp; intro _; simpa using h2, by simp⟩
      · next h2 =>
        refine ⟨_, _, rfl, ?_, by simp⟩
        simp only [Bool.not_eq_false] at h
        simp only [h, true_and, true_iff]
        omega
  obtain ⟨bs, sr', e, hg, hq⟩ := key
  refine ⟨(), setter (cd.dec bs) d, sr', ?_, hg, hq⟩
  simp only [readMember, Prog.bind_def, Prog.andThen, getObj, onReader, Prog.zoom, Reader.readInto, e, modifyObj]

theorem EncapHeader.flags : Flags EncapHeader.deserialize 24 :=
  .bind (m := 2) (n := 22) (.member (fun _ => rfl) _ _) fun _ =>
  .bind (m := 2) (n := 20) (.member (fun _ => rfl) _ _) fun _ =>
  .bind (m := 4) (n := 16) (.member (fun _ => rfl) _ _) fun _ =>
  .bind (m := 4) (n := 12) (.member (fun _ => rfl) _ _) fun _ =>
  .bind (m := 8) (n := 4) (.member (fun _ => rfl) _ _) fun _ => .member (fun _ => rfl) _ _

theorem RegisterSessionData.flags : Flags RegisterSessionData.deserialize 4 :=
  .bind (m := 2) (n := 2) (.member (fun _ => rfl) _ _) fun _ => .member (fun _ => rfl) _ _

theorem SequencedAddressItem.flags : Flags SequencedAddressItem.deserialize 8 :=
  .bind (m := 4) (n := 4) (.member (fun _ => rfl) _ _) fun _ => .member (fun _ => rfl) _ _

theorem updateLength_matches (p : EncapPacket) : LengthMatches p.updateLength := by
  unfold LengthMatches EncapPacket.updateLength
  cases p.payload <;> simp

theorem readNewBuffer_length {δ : Type} {n : Nat} {d d' : δ} {br : BufferReader} {sb : SerializableBuffer} {r' : Reader}
    (e : readNewBuffer n (d, .buffer br) = (.ok sb, (d', r'))) : sb.data.length = n ∧ d' = d := by
  simp only [readNewBuffer, parseFresh, SerializableBuffer.deserializeLen, BufferReader.readBuffer] at e
  split at e
  · next h => 
    split at h
    · next h2 =>
      split at h2 <;> simp at h2
      simp at h
      obtain ⟨rfl, rfl⟩ := h
      simp at e
      obtain ⟨rfl, rfl, _⟩ := e
      obtain ⟨rfl, _⟩ := h2
      simp; omega
    · simp at h
    · simp at h
  · simp at e
  · simp at e

theorem rawData_matches {p : EncapPacket} {bs : Bytes} (h : p.payload = rawData bs)
    (hl : bs.length = p.header.length.toNat) : LengthMatches p := by
  have := p.header.length.toNat_lt
  unfold LengthMatches
  rw [h]
  by_cases hne : bs = []
  · subst hne; rw [rawData, if_pos rfl]; simpa using hl.symm
  · rw [rawData_of_ne hne]
    simp only [SerializableBuffer.obj, SerializableBuffer.getLength]
    omega

theorem finish_payload {n : Nat} {p p' : EncapPacket} {br : BufferReader} {r' : Reader} (hn : n > 0)
    (e : (readNewBuffer n >>= fun sb => modifyObj (fun p => { p with payload := some sb.obj }) :
      Prog (EncapPacket × Reader) Unit) (p, .buffer br) = (.ok (), (p', r'))) :
    ∃ bs, p' = { p with payload := rawData bs } ∧ bs.length = n := by
  obtain ⟨sb, ⟨d1, r1⟩, e1, e2⟩ := Prog.bind_eq_ok e
  obtain ⟨hl, rfl⟩ := readNewBuffer_length e1
  simp only [modifyObj, Prod.mk.injEq, true_and] at e2
  have hne : sb.data ≠ [] := by intro h; rw [h] at hl; simp at hl; omega
  exact ⟨sb.data, by rw [← e2.1, rawData_of_ne hne], hl⟩

theorem header_buffer {p p' : EncapPacket} {br : BufferReader} {r' : Reader}
    (e : onPart (fun p : EncapPacket => p.header) (fun h p => { p with header := h }) EncapHeader.deserialize
      (p, .buffer br) = (.ok (), (p', r'))) : ∃ br', r' = .buffer br' := by
  obtain ⟨res, d', br', e', _⟩ := (Safe.part (fun p : EncapPacket => p.header) (fun h p => { p with header := h })
    EncapHeader.safe) p br
  rw [e] at e'
  simp only [Prod.mk.injEq] at e'
  exact ⟨br', e'.2.2⟩

theorem parse_payload {p p' : EncapPacket} {br : BufferReader} {r' : Reader}
    (e : EncapPacket.deserialize (p, .buffer br) = (.ok (), (p', r'))) :
    ∃ bs, p'.payload = rawData bs ∧ bs.length = p'.header.length.toNat := by
  unfold EncapPacket.deserialize at e
  obtain ⟨u, ⟨p1, r1⟩, e1, e2⟩ := Prog.bind_eq_ok e
  obtain ⟨br1, rfl⟩ := header_buffer e1
  obtain ⟨q, ⟨p2, r2⟩, e3, e4⟩ := Prog.bind_eq_ok e2
  simp only [getObj, Prod.mk.injEq, Res.ok.injEq] at e3
  obtain ⟨rfl, rfl, rfl⟩ := e3
  split at e4
  · next hpos =>
    obtain ⟨bs, rfl, hl⟩ := finish_payload hpos e4
    exact ⟨bs, rfl, hl⟩
  · next hz =>
    simp only [modifyObj, Prod.mk.injEq, true_and] at e4
    obtain ⟨rfl, _⟩ := e4
    exact ⟨[], rfl, by simp; omega⟩

theorem parseSized_payload {n : Nat} {p p' : EncapPacket} {br : BufferReader} {r' : Reader}
    (e : EncapPacket.deserializeSized n (p, .buffer br) = (.ok (), (p', r'))) :
    ∃ bs, p'.payload = rawData bs ∧ bs.length = p'.header.length.toNat := by
  unfold EncapPacket.deserializeSized at e
  obtain ⟨q0, ⟨p0, r0⟩, e0, e⟩ := Prog.bind_eq_ok e
  simp only [getObj, Prod.mk.injEq, Res.ok.injEq] at e0
  obtain ⟨rfl, rfl, rfl⟩ := e0
  split at e
  · simp [Prog.raise] at e
  obtain ⟨u, ⟨p1, r1⟩, e1, e2⟩ := Prog.bind_eq_ok e
  obtain ⟨br1, rfl⟩ := header_buffer e1
  obtain ⟨q, ⟨p2, r2⟩, e3, e4⟩ := Prog.bind_eq_ok e2
  simp only [getObj, Prod.mk.injEq, Res.ok.injEq] at e3
  obtain ⟨rfl, rfl, rfl⟩ := e3
  split at e4
  · simp [Prog.raise] at e4
  split at e4
  · next hpos =>
    obtain ⟨u, ⟨p3, r3⟩, e5, e6⟩ := Prog.bind_eq_ok e4
    simp only [modifyObj, Prod.mk.injEq, true_and] at e5
    obtain ⟨rfl, rfl⟩ := e5
    obtain ⟨bs, rfl, hl⟩ := finish_payload hpos e6
    exact ⟨bs, rfl, hl⟩
  · next hz =>
    simp only [modifyObj, Prod.mk.injEq, true_and] at e4
    obtain ⟨rfl, _⟩ := e4
    exact ⟨[], rfl, by simp; omega⟩

theorem hostBytes_little (n v : Nat) : hostBytes false n v = le n v := by
  unfold hostBytes le
  apply List.map_congr_left
  intro i _
  apply UInt8.toNat_inj.mp
  simp

theorem hostBytes_big (n v : Nat) : hostBytes true n v = (le n v).reverse := by
  rw [← hostBytes_little]
  apply List.ext_getElem
  · simp [hostBytes]
  · intro i h1 h2
    simp only [hostBytes, List.length_map, List.length_range] at h1
    simp [hostBytes]

/-- `p` leaves one part of the object alone, whatever happens. -/
def Keeps {δ α τ : Type} (f : δ → τ) (p : Prog (δ × Reader) α) : Prop := ∀ s, f (p s).2.1 = f s.1

theorem Keeps.bind {δ α β τ : Type} {f : δ → τ} {p : Prog (δ × Reader) α} {q : α → Prog (δ × Reader) β}
    (hp : Keeps f p) (hq : ∀ x, Keeps f (q x)) : Keeps f (p >>= q) := by
  intro s
  have h := hp s
  cases e : p s with
  | mk res s1 =>
    rw [e] at h
    cases res with
    | ok x => rw [Prog.bind_ok e, hq x s1]; exact h
    | throw ex => rw [Prog.bind_throw e]; exact h
    | ub u => rw [Prog.bind_ub e]; exact h

theorem Keeps.onReader {δ α τ : Type} {f : δ → τ} (p : Prog Reader α) : Keeps f (Eip.onReader p : Prog (δ × Reader) α) :=
  fun _ => rfl

theorem Keeps.member {δ τ α : Type} {f : δ → τ} (cd : Codec α) (getter : δ → α) (setter : α → δ → δ)
    (h : ∀ v d, f (setter v d) = f d) : Keeps f (readMember cd getter setter) :=
  .bind (fun _ => rfl) fun _ => .bind (.onReader _) fun _ => fun s => h _ s.1

/-- `p` leaves one part of the object alone when it throws. -/
def KeepsOnThrow {δ α τ : Type} (f : δ → τ) (p : Prog (δ × Reader) α) : Prop :=
  ∀ s e s', p s = (.throw e, s') → f s'.1 = f s.1

theorem KeepsOnThrow.bind {δ α β τ : Type} {f : δ → τ} {p : Prog (δ × Reader) α} {q : α → Prog (δ × Reader) β}
    (hp : Keeps f p) (hq : ∀ x, KeepsOnThrow f (q x)) : KeepsOnThrow f (p >>= q) := by
  intro s e s' h
  have hs := hp s
  cases ep : p s with
  | mk res s1 =>
    rw [ep] at hs
    cases res with
    | ok x => rw [Prog.bind_ok ep] at h; rw [hq x _ _ _ h]; exact hs
    | throw ex =>
      rw [Prog.bind_throw ep, Prod.mk.injEq] at h
      rw [← h.2]; exact hs
    | ub u => rw [Prog.bind_ub ep, Prod.mk.injEq] at h; exact absurd h.1 (by simp)

theorem KeepsOnThrow.modifyObj {δ τ : Type} {f : δ → τ} (g : δ → δ) : KeepsOnThrow f (Eip.modifyObj g) := by
  intro s e s' h
  simp [Eip.modifyObj] at h

theorem KeepsOnThrow.ite {δ α τ : Type} {f : δ → τ} {P : Prop} [Decidable P] {p q : Prog (δ × Reader) α}
    (hp : KeepsOnThrow f p) (hq : KeepsOnThrow f q) : KeepsOnThrow f (if P then p else q) := by
  split
  · exact hp
  · exact hq

theorem KeepsOnThrow.member {δ τ : Type} (cd : Codec τ) (getter : δ → τ) (setter : τ → δ → δ) :
    KeepsOnThrow (fun x => x) (readMember cd getter setter) :=
  .bind (fun _ => rfl) fun _ => .bind (.onReader _) fun _ => .modifyObj _

theorem KeepsOnThrow.rawLen {br : BufferReader} (n : Nat) : ∀ s e s', (SerializableBuffer.deserializeLen n) (s, .buffer br) = (.throw e, s') →
    s'.1 = s := by
  intro s e s' h
  simp only [SerializableBuffer.deserializeLen] at h
  split at h
  · simp at h
  · simp only [Prod.mk.injEq] at h; rw [← h.2]
  · simp at h

theorem Keeps.fresh {δ σ τ : Type} {f : δ → τ} (t : σ) (p : Prog (σ × Reader) Unit) :
    Keeps f (parseFresh t p : Prog (δ × Reader) σ) := by
  intro s
  simp only [parseFresh]
  split <;> rfl

end Eip
