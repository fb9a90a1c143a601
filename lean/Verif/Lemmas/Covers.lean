import Verif.Lemmas.Parse
/-
Every input either starts with an encoding or is a strict prefix of one: exhaustive case analysis of inputs.
-/
namespace Eip
open Spec

/-- Every byte string either starts with a member of `S` or is a strict prefix of one. -/
def Covers (S : Bytes → Prop) : Prop :=
  ∀ bs : Bytes, (∃ cs tail, S cs ∧ bs = cs ++ tail) ∨ (∃ cs m, S cs ∧ m ≠ [] ∧ cs = bs ++ m)

theorem Covers.fixed (n : Nat) : Covers (fun cs => cs.length = n) := by
  intro bs
  by_cases h : n ≤ bs.length
  · left
    exact ⟨bs.take n, bs.drop n, by simp [h], by simp⟩
  · right
    refine ⟨bs ++ List.replicate (n - bs.length) 0, List.replicate (n - bs.length) 0, ?_, ?_, rfl⟩
    · simp; omega
    · simp; omega

theorem Covers.inhabited {S : Bytes → Prop} (h : Covers S) : ∃ cs, S cs := by
  rcases h [] with ⟨cs, _, hs, _⟩ | ⟨cs, _, hs, _⟩ <;> exact ⟨cs, hs⟩

theorem Covers.seq {S : Bytes → Prop} {T : Bytes → Bytes → Prop} (hS : Covers S)
    (hT : ∀ a, S a → Covers (T a)) : Covers (fun cs => ∃ a b, S a ∧ T a b ∧ cs = a ++ b) := by
  intro bs
  rcases hS bs with ⟨a, tail, ha, e⟩ | ⟨a, m, ha, hm, e⟩
  · rcases hT a ha tail with ⟨b, tail', hb, e'⟩ | ⟨b, m, hb, hm, e'⟩
    · left
      exact ⟨a ++ b, tail', ⟨a, b, ha, hb, rfl⟩, by rw [e, e', List.append_assoc]⟩
    · right
      exact ⟨a ++ b, m, ⟨a, b, ha, hb, rfl⟩, hm, by rw [e, e', List.append_assoc]⟩
  · right
    obtain ⟨b, hb⟩ := (hT a ha).inhabited
    refine ⟨a ++ b, m ++ b, ⟨a, b, ha, hb, rfl⟩, ?_, by rw [e, List.append_assoc]⟩
    intro h
    exact hm (List.append_eq_nil_iff.mp h).1

theorem Covers.imp {S T : Bytes → Prop} (hS : Covers S) (h : ∀ cs, S cs → T cs) : Covers T := by
  intro bs
  rcases hS bs with ⟨a, tail, ha, e⟩ | ⟨a, m, ha, hm, e⟩
  · exact Or.inl ⟨a, tail, h a ha, e⟩
  · exact Or.inr ⟨a, m, h a ha, hm, e⟩

/-- The outcome of a deserializer on every buffer, when its encodings cover all inputs. -/
theorem Covers.total {δ α : Type} {c : Nat} {p : Prog (δ × Reader) α} {d : δ} {S : Bytes → Prop} (hS : Covers S)
    (hp : ∀ cs, S cs → ∃ x d', ParsesAt c p d cs x d') (input : Bytes) :
    (∃ cs tail x d', S cs ∧ input = cs ++ tail ∧ ParsesAt c p d cs x d' ∧
      p (d, .buffer ⟨input, c⟩) = (.ok x, (d', .buffer ⟨tail, c + cs.length⟩))) ∨
    (∃ cs m what d1 r1, S cs ∧ m ≠ [] ∧ cs = input ++ m ∧
      p (d, .buffer ⟨input, c⟩) = (.throw (lengthError what), (d1, .buffer r1))) := by
  rcases hS input with ⟨cs, tail, hs, e⟩ | ⟨cs, m, hs, hm, e⟩
  · obtain ⟨x, d', h⟩ := hp cs hs
    left
    exact ⟨cs, tail, x, d', hs, e, h, by rw [e]; exact h.buffer tail⟩
  · obtain ⟨x, d', h⟩ := hp cs hs
    obtain ⟨what, d1, r1, e'⟩ := h.short input m e hm
    exact Or.inr ⟨cs, m, what, d1, r1, hs, hm, e, e'⟩

/-! ### Any block of bytes is an integer -/

theorem exists_le16 (bs : Bytes) (h : bs.length = 2) : ∃ v : UInt16, bs = le 2 v.toNat :=
  ⟨de16 bs, by rw [← le16_eq_le, le16_de16 h]⟩
theorem exists_le32 (bs : Bytes) (h : bs.length = 4) : ∃ v : UInt32, bs = le 4 v.toNat :=
  ⟨de32 bs, by rw [← le32_eq_le, le32_de32 h]⟩
theorem exists_one (bs : Bytes) (h : bs.length = 1) : ∃ v : UInt8, bs = [v] := by
  match bs, h with
  | [v], _ => exact ⟨v, rfl⟩

theorem split_length {bs : Bytes} (m n : Nat) (h : bs.length = m + n) :
    ∃ a b : Bytes, bs = a ++ b ∧ a.length = m ∧ b.length = n :=
  ⟨bs.take m, bs.drop m, by simp, by simp; omega, by simp; omega⟩

theorem exists_header (bs : Bytes) (h : bs.length = 24) : ∃ x : EncapHeader, bs = Spec.header x := by
  obtain ⟨a1, r1, rfl, h1, g1⟩ := split_length 2 22 h
  obtain ⟨a2, r2, rfl, h2, g2⟩ := split_length 2 20 g1
  obtain ⟨a3, r3, rfl, h3, g3⟩ := split_length 4 16 g2
  obtain ⟨a4, r4, rfl, h4, g4⟩ := split_length 4 12 g3
  obtain ⟨a5, r5, rfl, h5, g5⟩ := split_length 4 8 g4
  obtain ⟨a6, a7, rfl, h6, h7⟩ := split_length 4 4 g5
  obtain ⟨v1, rfl⟩ := exists_le16 a1 h1
  obtain ⟨v2, rfl⟩ := exists_le16 a2 h2
  obtain ⟨v3, rfl⟩ := exists_le32 a3 h3
  obtain ⟨v4, rfl⟩ := exists_le32 a4 h4
  obtain ⟨v5, rfl⟩ := exists_le32 a5 h5
  obtain ⟨v6, rfl⟩ := exists_le32 a6 h6
  obtain ⟨v7, rfl⟩ := exists_le32 a7 h7
  exact ⟨⟨v1, v2, v3, v4, (v5, v6), v7⟩, by simp [Spec.header]⟩

theorem covers_header : Covers (fun cs => ∃ h : EncapHeader, cs = Spec.header h) :=
  (Covers.fixed 24).imp (fun cs h => exists_header cs h)

theorem header_inj {h h' : EncapHeader} (e : Spec.header h = Spec.header h') : h = h' := by
  have a := (EncapHeader.parses (EncapHeader.new) h 0).buffer []
  have b := (EncapHeader.parses (EncapHeader.new) h' 0).buffer []
  rw [e] at a
  rw [a] at b
  simpa using b

theorem covers_encap : Covers (fun cs => ∃ (h : EncapHeader) (p : Bytes), p.length = h.length.toNat ∧
    cs = Spec.header h ++ p) := by
  have := covers_header.seq (T := fun a b => ∃ h : EncapHeader, a = Spec.header h ∧ b.length = h.length.toNat) (by
    rintro a ⟨h, rfl⟩
    exact (Covers.fixed h.length.toNat).imp (fun cs e => ⟨h, rfl, e⟩))
  refine this.imp ?_
  rintro cs ⟨a, b, _, ⟨h, rfl, e⟩, rfl⟩
  exact ⟨h, b, e, rfl⟩

theorem covers_item : Covers (fun cs => ∃ (t : UInt16) (p : Bytes), p.length < 65536 ∧ cs = item t p) := by
  have := (Covers.fixed 4).seq (T := fun a b => ∃ t n : UInt16, a = le 2 t.toNat ++ le 2 n.toNat ∧
      b.length = n.toNat) (by
    intro a ha
    obtain ⟨x, y, rfl, hx, hy⟩ := split_length 2 2 ha
    obtain ⟨t, rfl⟩ := exists_le16 x hx
    obtain ⟨n, rfl⟩ := exists_le16 y hy
    exact (Covers.fixed n.toNat).imp (fun cs e => ⟨t, n, rfl, e⟩))
  refine this.imp ?_
  rintro cs ⟨a, b, _, ⟨t, n, rfl, e⟩, rfl⟩
  refine ⟨t, b, by rw [e]; exact n.toNat_lt, ?_⟩
  simp [item, e]

theorem covers_items (n : Nat) : Covers (fun cs => ∃ l : List (UInt16 × Bytes), l.length = n ∧
    (∀ i ∈ l, i.2.length < 65536) ∧ cs = (l.map (fun i => item i.1 i.2)).flatten) := by
  induction n with
  | zero =>
    intro bs
    exact Or.inl ⟨[], bs, ⟨[], rfl, by simp, rfl⟩, rfl⟩
  | succ n ih =>
    have := covers_item.seq (T := fun _ b => ∃ l : List (UInt16 × Bytes), l.length = n ∧
      (∀ i ∈ l, i.2.length < 65536) ∧ b = (l.map (fun i => item i.1 i.2)).flatten) (fun _ _ => ih)
    refine this.imp ?_
    rintro cs ⟨a, b, ⟨t, p, hp, rfl⟩, ⟨l, hl, hb, rfl⟩, rfl⟩
    refine ⟨(t, p) :: l, by simp [hl], ?_, by simp⟩
    intro i hi
    rcases List.mem_cons.mp hi with rfl | hi
    · exact hp
    · exact hb i hi

theorem covers_cpf : Covers (fun cs => ∃ l, CpfOk l ∧ cs = cpf l) := by
  have := (Covers.fixed 2).seq (T := fun a b => ∃ l, CpfOk l ∧ a ++ b = cpf l) (by
    intro a ha
    obtain ⟨n, rfl⟩ := exists_le16 a ha
    refine (covers_items n.toNat).imp ?_
    rintro cs ⟨l, hl, hb, rfl⟩
    exact ⟨l, ⟨by rw [hl]; exact n.toNat_lt, hb⟩, by simp [cpf, hl]⟩)
  refine this.imp ?_
  rintro cs ⟨a, b, _, ⟨l, h, e⟩, rfl⟩
  exact ⟨l, h, e⟩

theorem covers_register : Covers (fun cs => ∃ v o, cs = register v o) := by
  refine (Covers.fixed 4).imp ?_
  intro cs h
  obtain ⟨a, b, rfl, ha, hb⟩ := split_length 2 2 h
  obtain ⟨v, rfl⟩ := exists_le16 a ha
  obtain ⟨o, rfl⟩ := exists_le16 b hb
  exact ⟨v, o, rfl⟩

theorem covers_seqAddress : Covers (fun cs => ∃ v o, cs = seqAddress v o) := by
  refine (Covers.fixed 8).imp ?_
  intro cs h
  obtain ⟨a, b, rfl, ha, hb⟩ := split_length 4 4 h
  obtain ⟨v, rfl⟩ := exists_le32 a ha
  obtain ⟨o, rfl⟩ := exists_le32 b hb
  exact ⟨v, o, rfl⟩

theorem exists_sockaddr (bs : Bytes) (h : bs.length = 16) : ∃ x, bs = sockaddr x := by
  obtain ⟨a1, r1, rfl, h1, g1⟩ := split_length 2 14 h
  obtain ⟨a2, r2, rfl, h2, g2⟩ := split_length 2 12 g1
  obtain ⟨a3, r3, rfl, h3, g3⟩ := split_length 4 8 g2
  obtain ⟨a4, a5, rfl, h4, h5⟩ := split_length 4 4 g3
  obtain ⟨v1, rfl⟩ := exists_le16 a1 h1
  obtain ⟨v2, rfl⟩ := exists_le16 a2 h2
  obtain ⟨v3, rfl⟩ := exists_le32 a3 h3
  obtain ⟨v4, rfl⟩ := exists_le32 a4 h4
  obtain ⟨v5, rfl⟩ := exists_le32 a5 h5
  exact ⟨⟨v1, v2, v3, (v4, v5)⟩, by simp [sockaddr]⟩

theorem covers_identity : Covers (fun cs => ∃ x : IdentityItemData, x.productName.length < 256 ∧
    cs = identity x x.productName) := by
  have := (Covers.fixed 33).seq (T := fun a b => ∃ x : IdentityItemData, x.productName.length < 256 ∧
      a ++ b = identity x x.productName) (by
    intro a h
    obtain ⟨a1, r1, rfl, h1, g1⟩ := split_length 2 31 h
    obtain ⟨a2, r2, rfl, h2, g2⟩ := split_length 16 15 g1
    obtain ⟨a3, r3, rfl, h3, g3⟩ := split_length 2 13 g2
    obtain ⟨a4, r4, rfl, h4, g4⟩ := split_length 2 11 g3
    obtain ⟨a5, r5, rfl, h5, g5⟩ := split_length 2 9 g4
    obtain ⟨a6, r6, rfl, h6, g6⟩ := split_length 1 8 g5
    obtain ⟨a7, r7, rfl, h7, g7⟩ := split_length 1 7 g6
    obtain ⟨a8, r8, rfl, h8, g8⟩ := split_length 2 5 g7
    obtain ⟨a9, a10, rfl, h9, h10⟩ := split_length 4 1 g8
    obtain ⟨v1, rfl⟩ := exists_le16 a1 h1
    obtain ⟨v2, rfl⟩ := exists_sockaddr a2 h2
    obtain ⟨v3, rfl⟩ := exists_le16 a3 h3
    obtain ⟨v4, rfl⟩ := exists_le16 a4 h4
    obtain ⟨v5, rfl⟩ := exists_le16 a5 h5
    obtain ⟨v6, rfl⟩ := exists_one a6 h6
    obtain ⟨v7, rfl⟩ := exists_one a7 h7
    obtain ⟨v8, rfl⟩ := exists_le16 a8 h8
    obtain ⟨v9, rfl⟩ := exists_le32 a9 h9
    obtain ⟨n, rfl⟩ := exists_one a10 h10
    refine (Covers.fixed (n.toNat + 1)).imp ?_
    intro b hb
    obtain ⟨name, st, rfl, hn, hs⟩ := split_length n.toNat 1 hb
    obtain ⟨st, rfl⟩ := exists_one st hs
    refine ⟨⟨v1, v2, v3, v4, v5, (v6, v7), v8, v9, name, st⟩, by rw [hn]; exact n.toNat_lt, ?_⟩
    simp [identity, hn, le1_toNat])
  refine this.imp ?_
  rintro cs ⟨a, b, _, ⟨x, hx, e⟩, rfl⟩
  exact ⟨x, hx, e⟩

theorem covers_mrReply : Covers (fun cs => ∃ (s r st k : UInt8) (a : Bytes), a.length = 2 * k.toNat ∧
    cs = mrReply s r st k a []) := by
  have := (Covers.fixed 4).seq (T := fun a b => ∃ (s r st k : UInt8), a = [s, r, st, k] ∧ b.length = 2 * k.toNat) (by
    intro a ha
    match a, ha with
    | [s, r, st, k], _ => exact (Covers.fixed (2 * k.toNat)).imp (fun cs e => ⟨s, r, st, k, rfl, e⟩))
  refine this.imp ?_
  rintro cs ⟨a, b, _, ⟨s, r, st, k, rfl, e⟩, rfl⟩
  exact ⟨s, r, st, k, b, e, by simp [mrReply]⟩

theorem covers_forwardOpenReply : Covers (fun cs => ∃ (oToT tToO : UInt32) (sn vendor : UInt16)
    (originator oApi tApi : UInt32) (k reserved : UInt8) (app : Bytes), app.length = 2 * k.toNat ∧
    cs = forwardOpenReply oToT tToO sn vendor originator oApi tApi k reserved app) := by
  have := (Covers.fixed 26).seq (T := fun a b => ∃ (oToT tToO : UInt32) (sn vendor : UInt16)
      (originator oApi tApi : UInt32) (k reserved : UInt8), b.length = 2 * k.toNat ∧
      a = forwardOpenReply oToT tToO sn vendor originator oApi tApi k reserved []) (by
    intro a h
    obtain ⟨a1, r1, rfl, h1, g1⟩ := split_length 4 22 h
    obtain ⟨a2, r2, rfl, h2, g2⟩ := split_length 4 18 g1
    obtain ⟨a3, r3, rfl, h3, g3⟩ := split_length 2 16 g2
    obtain ⟨a4, r4, rfl, h4, g4⟩ := split_length 2 14 g3
    obtain ⟨a5, r5, rfl, h5, g5⟩ := split_length 4 10 g4
    obtain ⟨a6, r6, rfl, h6, g6⟩ := split_length 4 6 g5
    obtain ⟨a7, r7, rfl, h7, g7⟩ := split_length 4 2 g6
    obtain ⟨a8, a9, rfl, h8, h9⟩ := split_length 1 1 g7
    obtain ⟨v1, rfl⟩ := exists_le32 a1 h1
    obtain ⟨v2, rfl⟩ := exists_le32 a2 h2
    obtain ⟨v3, rfl⟩ := exists_le16 a3 h3
    obtain ⟨v4, rfl⟩ := exists_le16 a4 h4
    obtain ⟨v5, rfl⟩ := exists_le32 a5 h5
    obtain ⟨v6, rfl⟩ := exists_le32 a6 h6
    obtain ⟨v7, rfl⟩ := exists_le32 a7 h7
    obtain ⟨k, rfl⟩ := exists_one a8 h8
    obtain ⟨r, rfl⟩ := exists_one a9 h9
    refine (Covers.fixed (2 * k.toNat)).imp ?_
    intro b hb
    exact ⟨v1, v2, v3, v4, v5, v6, v7, k, r, hb, by simp [forwardOpenReply]⟩)
  refine this.imp ?_
  rintro cs ⟨a, b, _, ⟨v1, v2, v3, v4, v5, v6, v7, k, r, hb, rfl⟩, rfl⟩
  exact ⟨v1, v2, v3, v4, v5, v6, v7, k, r, b, hb, by simp [forwardOpenReply]⟩

theorem covers_forwardCloseReply : Covers (fun cs => ∃ (sn vendor : UInt16)
    (originator : UInt32) (k reserved : UInt8) (app : Bytes), app.length = 2 * k.toNat ∧
    cs = forwardCloseReply sn vendor originator k reserved app) := by
  have := (Covers.fixed 10).seq (T := fun a b => ∃ (sn vendor : UInt16)
      (originator : UInt32) (k reserved : UInt8), b.length = 2 * k.toNat ∧
      a = forwardCloseReply sn vendor originator k reserved []) (by
    intro a h
    obtain ⟨a3, r3, rfl, h3, g3⟩ := split_length 2 8 h
    obtain ⟨a4, r4, rfl, h4, g4⟩ := split_length 2 6 g3
    obtain ⟨a5, r5, rfl, h5, g5⟩ := split_length 4 2 g4
    obtain ⟨a8, a9, rfl, h8, h9⟩ := split_length 1 1 g5
    obtain ⟨v3, rfl⟩ := exists_le16 a3 h3
    obtain ⟨v4, rfl⟩ := exists_le16 a4 h4
    obtain ⟨v5, rfl⟩ := exists_le32 a5 h5
    obtain ⟨k, rfl⟩ := exists_one a8 h8
    obtain ⟨r, rfl⟩ := exists_one a9 h9
    refine (Covers.fixed (2 * k.toNat)).imp ?_
    intro b hb
    exact ⟨v3, v4, v5, k, r, hb, by simp [forwardCloseReply]⟩)
  refine this.imp ?_
  rintro cs ⟨a, b, _, ⟨v3, v4, v5, k, r, hb, rfl⟩, rfl⟩
  exact ⟨v3, v4, v5, k, r, b, hb, by simp [forwardCloseReply]⟩

end Eip
