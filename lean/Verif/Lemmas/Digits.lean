import Verif.Spec.Lines
/-
The digits of numbers.
-/
namespace Eip
open Spec

theorem digit_value {n : Nat} (h : n < 16) : digitValue (digit n) = some n := by
  have : ∀ n : Fin 16, digitValue (digit n.val) = some n.val := by decide
  exact this ⟨n, h⟩

theorem value_digit {c : UInt8} {d : Nat} (h : digitValue c = some d) : c = digit d := by
  rw [digitValue] at h
  split at h
  · cases h
    rw [digit, if_pos (by omega), show 48 + (c.toNat - 48) = c.toNat by omega, UInt8.ofNat_toNat]
  · split at h
    · cases h
      rw [digit, if_neg (by omega), show 55 + (c.toNat - 55) = c.toNat by omega, UInt8.ofNat_toNat]
    · cases h

theorem digit_zero {n : Nat} (h : n < 16) (e : digit n = 48) : n = 0 := by
  have h1 := digit_value h
  rw [e] at h1
  have h2 : digitValue 48 = some 0 := by decide
  rw [h2] at h1
  exact (Option.some.inj h1).symm

theorem digits_lt {base n : Nat} (h : n < base) : digits base n = [digit n] := by
  rw [digits, dif_pos (Or.inl h)]

theorem digits_ge {base n : Nat} (hb : 2 ≤ base) (h : base ≤ n) :
    digits base n = digits base (n / base) ++ [digit (n % base)] := by
  rw [digits, dif_neg (by omega)]

theorem digits_read {base : Nat} (hb : 2 ≤ base) (hb' : base ≤ 16) (n : Nat) : ReadsAs base (digits base n) n := by
  induction n using Nat.strongRecOn with
  | ind n ih =>
    by_cases h : n < base
    · rw [digits_lt h]
      have := ReadsAs.snoc (base := base) ReadsAs.nil (digit_value (show n < 16 by omega)) h
      simpa using this
    · have h := Nat.le_of_not_lt h
      rw [digits_ge hb h]
      have hm := Nat.mod_lt n (show 0 < base by omega)
      have := ReadsAs.snoc (ih (n / base) (Nat.div_lt_self (by omega) (by omega)))
        (digit_value (show n % base < 16 by omega)) hm
      rwa [Nat.div_add_mod] at this

theorem digits_ne_nil (base n : Nat) : digits base n ≠ [] := by
  rw [digits]
  split <;> simp

theorem digits_head {base : Nat} (hb : 2 ≤ base) (hb' : base ≤ 16) (n : Nat) (hn : n ≠ 0) : (digits base n).head? ≠ some 48 := by
  induction n using Nat.strongRecOn with
  | ind n ih =>
    by_cases h : n < base
    · rw [digits_lt h]
      intro e
      exact hn (digit_zero (by omega) (Option.some.inj e))
    · have h := Nat.le_of_not_lt h
      rw [digits_ge hb h]
      have h1 := ih (n / base) (Nat.div_lt_self (by omega) (by omega))
        (by have := Nat.div_pos h (show 0 < base by omega); omega)
      have h2 := digits_ne_nil base (n / base)
      revert h1 h2
      rcases digits base (n / base) with _ | ⟨x, xs⟩
      · intro _ h2
        exact absurd rfl h2
      · intro h1 _
        simpa using h1

theorem digits_numeral {base : Nat} (hb : 2 ≤ base) (hb' : base ≤ 16) (n : Nat) : Numeral base (digits base n) n := by
  refine ⟨digits_read hb hb' n, digits_ne_nil _ _, fun h => ?_⟩
  by_cases hn : n = 0
  · subst hn
    rw [digits_lt (by omega)]
    rfl
  · exact absurd h (digits_head hb hb' n hn)

theorem digits_length {base : Nat} (hb : 2 ≤ base) (k : Nat) : ∀ n, n < base ^ (k + 1) → (digits base n).length ≤ k + 1 := by
  induction k with
  | zero =>
    intro n h
    rw [digits_lt (by simpa using h)]
    simp
  | succ k ih =>
    intro n h
    by_cases hn : n < base
    · rw [digits_lt hn]
      simp
    · rw [digits_ge hb (by omega), List.length_append]
      have := ih (n / base) (Nat.div_lt_of_lt_mul (by rwa [Nat.pow_succ, Nat.mul_comm] at h))
      simp only [List.length_singleton]
      omega

theorem Spec.ReadsAs.bound {base : Nat} {bs : Bytes} {n : Nat} (h : ReadsAs base bs n) : n < base ^ bs.length := by
  induction h with
  | nil => simp
  | @snoc bs n c d h hc hd ih =>
    rw [List.length_append, List.length_singleton, Nat.pow_succ, Nat.mul_comm (base ^ _)]
    calc base * n + d < base * n + base := by omega
      _ = base * (n + 1) := by rw [Nat.mul_succ]
      _ ≤ base * base ^ bs.length := Nat.mul_le_mul_left _ ih

theorem Spec.ReadsAs.snoc_inv {base : Nat} {bs : Bytes} {c : UInt8} {n : Nat} (h : ReadsAs base (bs ++ [c]) n) :
    ∃ m d, ReadsAs base bs m ∧ digitValue c = some d ∧ d < base ∧ n = base * m + d := by
  obtain ⟨l, e⟩ : ∃ l, l = bs ++ [c] := ⟨_, rfl⟩
  rw [← e] at h
  cases h with
  | nil => simp at e
  | snoc h hc hd =>
    obtain ⟨rfl, e2⟩ := List.append_inj' e rfl
    cases e2
    exact ⟨_, _, h, hc, hd, rfl⟩

/-- A numeral with as many digits as another, and the same value, is the same numeral. -/
theorem Spec.ReadsAs.inj {base : Nat} {bs : Bytes} {n : Nat} (h : ReadsAs base bs n) :
    ∀ {bs'}, ReadsAs base bs' n → bs.length = bs'.length → bs = bs' := by
  induction h with
  | nil =>
    intro bs' _ e
    exact (List.eq_nil_of_length_eq_zero e.symm).symm
  | @snoc bs n c d h hc hd ih =>
    intro bs' h' e
    rcases List.eq_nil_or_concat bs' with rfl | ⟨bs', c', rfl⟩
    · simp at e
    · rw [List.concat_eq_append] at h' e ⊢
      obtain ⟨m, d', h1, hc', hd', e1⟩ := h'.snoc_inv
      have e2 : (base * n + d) / base = (base * m + d') / base := by rw [e1]
      have e3 : (base * n + d) % base = (base * m + d') % base := by rw [e1]
      rw [Nat.mul_add_div (by omega), Nat.mul_add_div (by omega), Nat.div_eq_of_lt hd, Nat.div_eq_of_lt hd'] at e2
      rw [Nat.mul_add_mod, Nat.mul_add_mod, Nat.mod_eq_of_lt hd, Nat.mod_eq_of_lt hd'] at e3
      have e4 : n = m := by omega
      subst e4
      subst e3
      rw [ih h1 (by simpa using e), value_digit hc, value_digit hc']

/-- A numeral that does not begin with zero is at least a power of the base. -/
theorem Spec.ReadsAs.large {base : Nat} {bs : Bytes} {n : Nat} (h : ReadsAs base bs n) :
    bs ≠ [] → bs.head? ≠ some 48 → base ^ bs.length ≤ base * n := by
  induction h with
  | nil => intro h; exact absurd rfl h
  | @snoc bs n c d h hc hd ih =>
    intro _ h0
    rcases bs with _ | ⟨x, xs⟩
    · have : d ≠ 0 := by
        rintro rfl
        have := value_digit hc
        exact h0 (by simp [this, digit])
      have := Nat.mul_le_mul_left base (show 1 ≤ base * n + d by omega)
      simpa using this
    · have := ih (by simp) (by simpa using h0)
      rw [List.length_append, List.length_singleton, Nat.pow_succ, Nat.mul_comm (base ^ _)]
      exact Nat.mul_le_mul_left _ (by omega)

/-- There is only one way to write a number. -/
theorem Spec.Numeral.unique {base : Nat} (hb : 2 ≤ base) {bs bs' : Bytes} {n : Nat} (h : Numeral base bs n)
    (h' : Numeral base bs' n) : bs = bs' := by
  have key : ∀ {a b : Bytes}, Numeral base a n → Numeral base b n → a.length ≤ b.length := by
    rintro a b ⟨ha, na, za⟩ ⟨hb1, nb, zb⟩
    by_cases h0 : a.head? = some 48
    · rw [za h0]
      exact List.length_pos_iff.mpr nb
    · have h1 := ha.large na h0
      have h2 := hb1.bound
      have h3 : base ^ a.length < base ^ (b.length + 1) := by
        rw [Nat.pow_succ, Nat.mul_comm (base ^ _)]
        exact Nat.lt_of_le_of_lt h1 (Nat.mul_lt_mul_of_pos_left h2 (by omega))
      have := (Nat.pow_lt_pow_iff_right (show 1 < base by omega)).mp h3
      omega
  exact h.1.inj h'.1 (Nat.le_antisymm (key h h') (key h' h))

theorem reads_zeros {base : Nat} (hb : 0 < base) (k : Nat) : ReadsAs base (List.replicate k 48) 0 := by
  induction k with
  | zero => exact ReadsAs.nil
  | succ k ih =>
    have := ReadsAs.snoc ih (show digitValue 48 = some 0 by decide) hb
    rwa [← List.replicate_succ'] at this

theorem Spec.ReadsAs.zeros_append {base : Nat} (hb : 0 < base) {bs : Bytes} {n : Nat} (h : ReadsAs base bs n) (k : Nat) :
    ReadsAs base (List.replicate k 48 ++ bs) n := by
  induction h with
  | nil => simpa using reads_zeros hb k
  | snoc h hc hd ih =>
    rw [← List.append_assoc]
    exact ReadsAs.snoc ih hc hd

end Eip
