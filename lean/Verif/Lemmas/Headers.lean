import Verif.Spec.Headers
/-
The headers of the library: facts about the tables, and what preprocessing does.
-/
namespace Eip

theorem Header.mem_all (h : Header) : h ∈ Header.all := by cases h <;> decide

/-- How deep the includes of a header go. -/
def Header.rank : Header → Nat
  | .eipTypes => 0
  | .reader | .writer | .ioScanner => 1
  | .serializable | .bufferReader | .bufferWriter | .streamReader | .streamWriter => 2
  | .encapHeader | .cpfItem | .path | .identityItemData | .registerSessionData | .sequencedAddressItem | .sequencedDataItem |
    .messageRouterResponse | .copySerializable | .serializableBuffer | .serializablePrimitive | .socket => 3
  | .encapPacket | .cpfPacket | .forwardCloseRequest | .forwardOpenRequest | .forwardOpenSuccess | .forwardCloseSuccess |
    .messageRouterRequest | .rrData | .tcpSocket | .udpSocket | .testSocket => 4
  | .connection | .rrDataRequest | .rrDataResponse => 5
  | .session => 6

theorem Header.rank_includes : ∀ h : Header, ∀ g ∈ h.includes, g.rank < h.rank := by
  have : Header.all.all (fun h => h.includes.all (fun g => g.rank < h.rank)) = true := by decide +kernel
  intro h g hg
  have := List.all_eq_true.1 this h h.mem_all
  simpa using List.all_eq_true.1 this g hg

theorem Header.guard_eq : ∀ h g : Header, h.guard = g.guard →
    h = g ∨ (h = .identityItemData ∧ g = .registerSessionData) ∨ (h = .registerSessionData ∧ g = .identityItemData) := by
  have : Header.all.all (fun h => Header.all.all (fun g => decide (h.guard = g.guard →
      h = g ∨ (h = .identityItemData ∧ g = .registerSessionData) ∨ (h = .registerSessionData ∧ g = .identityItemData)))) = true := by
    decide +kernel
  intro h g
  have := List.all_eq_true.1 (List.all_eq_true.1 this h h.mem_all) g g.mem_all
  exact of_decide_eq_true this

theorem Header.includes_neither : ∀ h : Header, .identityItemData ∉ h.includes ∧ .registerSessionData ∉ h.includes := by
  intro h; cases h <;> decide

/-- A header and everything it includes, to some depth. -/
def Header.closure : Nat → Header → List Header
  | 0, h => h.includes
  | n + 1, h => h.includes ++ h.includes.flatMap (Header.closure n)

theorem Header.uses_declared : ∀ h : Header, ∀ n ∈ h.uses, ∃ g ∈ Header.closure 6 h, n ∈ g.declares := by
  have : Header.all.all (fun h => h.uses.all (fun n => (Header.closure 6 h).any (fun g => g.declares.contains n))) = true := by
    decide +kernel
  intro h n hn
  have := List.all_eq_true.1 (List.all_eq_true.1 this h h.mem_all) n hn
  simpa using this

/-! ### Preprocessing -/

theorem expand_total : ∀ (r : Nat) (hs : List Header) (t : Text), (∀ h ∈ hs, h.rank < r) → ∃ t', Expands hs t t' := by
  intro r
  induction r with
  | zero =>
    intro hs t hr
    cases hs with
    | nil => exact ⟨t, .nil t⟩
    | cons h hs => exact absurd (hr h List.mem_cons_self) (by omega)
  | succ r ih =>
    intro hs
    induction hs with
    | nil => intro t _; exact ⟨t, .nil t⟩
    | cons h hs ih2 =>
      intro t hr
      have hr' : ∀ g ∈ hs, g.rank < r + 1 := fun g hg => hr g (List.mem_cons_of_mem _ hg)
      by_cases hd : h.guard ∈ t.macros
      · obtain ⟨t', h'⟩ := ih2 t hr'
        exact ⟨t', .skip hd h'⟩
      · obtain ⟨t1, h1⟩ := ih h.includes { t with macros := h.guard :: t.macros } (fun g hg => by
          have := Header.rank_includes h g hg
          have := hr h List.mem_cons_self
          omega)
        obtain ⟨t', h'⟩ := ih2 { t1 with text := t1.text ++ [h] } hr'
        exact ⟨t', .enter hd h1 h'⟩

theorem Expands.unique {hs : List Header} {t a b : Text} (ha : Expands hs t a) (hb : Expands hs t b) : a = b := by
  induction ha generalizing b with
  | nil => cases hb; rfl
  | skip d _ ih =>
    cases hb with
    | skip _ t => exact ih t
    | enter u => exact absurd d u
  | enter u _ _ ih1 ih2 =>
    cases hb with
    | skip d => exact absurd d u
    | enter _ i t =>
      have := ih1 i
      subst this
      exact ih2 t

/-- The macros only grow. -/
theorem Expands.macros {hs : List Header} {t t' : Text} (h : Expands hs t t') : ∀ m ∈ t.macros, m ∈ t'.macros := by
  induction h with
  | nil => exact fun _ h => h
  | skip _ _ ih => exact ih
  | enter _ _ _ ih1 ih2 => exact fun m hm => ih2 m (ih1 m (List.mem_cons_of_mem _ hm))

/-- So does the text. -/
theorem Expands.keeps {hs : List Header} {t t' : Text} (h : Expands hs t t') : ∀ x ∈ t.text, x ∈ t'.text := by
  induction h with
  | nil => exact fun _ h => h
  | skip _ _ ih => exact ih
  | enter _ _ _ ih1 ih2 => exact fun m hm => ih2 m (List.mem_append_left _ (ih1 m hm))

theorem Expands.split {a b : List Header} {t t' : Text} (h : Expands (a ++ b) t t') :
    ∃ m, Expands a t m ∧ Expands b m t' := by
  generalize e : a ++ b = hs at h
  induction h generalizing a with
  | nil u =>
    obtain ⟨rfl, rfl⟩ := List.append_eq_nil_iff.1 e
    exact ⟨u, .nil u, .nil u⟩
  | @skip h hs u u' d t ih =>
    cases a with
    | nil => exact ⟨u, .nil u, by simp only [List.nil_append] at e; rw [e]; exact .skip d t⟩
    | cons x a =>
      obtain ⟨rfl, e'⟩ := List.cons.inj e
      obtain ⟨m, h1, h2⟩ := ih e'
      exact ⟨m, .skip d h1, h2⟩
  | @enter h hs u u1 u' d i t ih1 ih2 =>
    cases a with
    | nil => exact ⟨u, .nil u, by simp only [List.nil_append] at e; rw [e]; exact .enter d i t⟩
    | cons x a =>
      obtain ⟨rfl, e'⟩ := List.cons.inj e
      obtain ⟨m, h1, h2⟩ := ih2 e'
      exact ⟨m, .enter d i h1, h2⟩

/-- The headers in the text have different guards, and these are defined. -/
def Guarded (t : Text) : Prop := (t.text.map Header.guard).Nodup ∧ ∀ h ∈ t.text, h.guard ∈ t.macros

theorem Expands.guarded {hs : List Header} {t t' : Text} (h : Expands hs t t') (g : Guarded t) : Guarded t' ∧
    (∀ x ∈ t'.text, x ∈ t.text ∨ x.guard ∉ t.macros) := by
  induction h with
  | nil => exact ⟨g, fun x hx => .inl hx⟩
  | skip _ _ ih => exact ih g
  | @enter h hs u u1 u' undefined inner _ ih1 ih2 =>
    obtain ⟨⟨n1, m1⟩, new1⟩ := ih1 ⟨g.1, fun x hx => List.mem_cons_of_mem _ (g.2 x hx)⟩
    have fresh : ∀ x ∈ u1.text, x.guard ≠ h.guard := by
      intro x hx e
      rcases new1 x hx with hx | hx
      · exact undefined (e ▸ g.2 x hx)
      · exact hx (e ▸ List.mem_cons_self)
    obtain ⟨g2, new2⟩ := ih2 ⟨by
      rw [List.map_append, List.nodup_append]
      refine ⟨n1, by simp, ?_⟩
      intro a ha b hb
      obtain ⟨x, hx, rfl⟩ := List.mem_map.1 ha
      simp only [List.map_cons, List.map_nil, List.mem_singleton] at hb
      subst hb
      exact fresh x hx, by
      intro x hx
      rcases List.mem_append.1 hx with hx | hx
      · exact m1 x hx
      · have := List.mem_singleton.1 hx
        subst this
        exact inner.macros _ List.mem_cons_self⟩
    refine ⟨g2, fun x hx => ?_⟩
    rcases new2 x hx with hx | hx
    · rcases List.mem_append.1 hx with hx | hx
      · rcases new1 x hx with hx | hx
        · exact .inl hx
        · exact .inr (fun hm => hx (List.mem_cons_of_mem _ hm))
      · have := List.mem_singleton.1 hx
        subst this
        exact .inr undefined
    · exact .inr (fun hm => hx (inner.macros x.guard (List.mem_cons_of_mem _ hm)))

/-- Every header in the text has what it includes before it. -/
def Closed (t : List Header) : Prop := ∀ before h after, t = before ++ h :: after → ∀ g ∈ h.includes, g ∈ before

theorem Closed.closure {t : List Header} (c : Closed t) (n : Nat) : ∀ before h after, t = before ++ h :: after →
    ∀ g ∈ Header.closure n h, g ∈ before := by
  induction n with
  | zero => exact c
  | succ n ih =>
    intro before h after e g hg
    rcases List.mem_append.1 hg with hg | hg
    · exact c before h after e g hg
    · obtain ⟨i, hi, hg⟩ := List.mem_flatMap.1 hg
      obtain ⟨x, y, rfl⟩ := List.append_of_mem (c before h after e i hi)
      have := ih x i (y ++ h :: after) (by rw [e]; simp) g hg
      exact List.mem_append_left _ this

/-- Preprocessing headers of which at most one of the two with the same guard is used: all of them are there. -/
theorem Expands.complete {hs : List Header} {t t' : Text} (h : Expands hs t t') (other : Header)
    (pair : other = .identityItemData ∨ other = .registerSessionData) (r : Nat)
    (low : ∀ x ∈ hs, x.rank < r ∧ x ≠ other)
    (known : ∀ x, x ≠ other → x.guard ∈ t.macros → x ∈ t.text ∨ r ≤ x.rank) (c : Closed t.text) :
    (∀ x ∈ hs, x ∈ t'.text) ∧ (∀ x ∈ t.text, x ∈ t'.text) ∧
      (∀ x, x ≠ other → x.guard ∈ t'.macros → x ∈ t'.text ∨ x.guard ∈ t.macros) ∧ Closed t'.text := by
  induction h generalizing r with
  | nil => exact ⟨by simp, fun _ h => h, fun _ _ hm => .inr hm, c⟩
  | @skip h hs u u' defined t ih =>
    obtain ⟨a, b, d, e⟩ := ih r (fun x hx => low x (List.mem_cons_of_mem _ hx)) known c
    refine ⟨fun x hx => ?_, b, d, e⟩
    rcases List.mem_cons.1 hx with rfl | hx
    · obtain ⟨l1, l2⟩ := low x List.mem_cons_self
      rcases known x l2 defined with h | h
      · exact b x h
      · omega
    · exact a x hx
  | @enter h hs u u1 u' undefined inner t ih1 ih2 =>
    obtain ⟨l1, l2⟩ := low h List.mem_cons_self
    obtain ⟨a, b, d, e⟩ := ih1 h.rank (fun x hx => ⟨Header.rank_includes h x hx, by
        rintro rfl
        rcases pair with rfl | rfl
        · exact (Header.includes_neither h).1 hx
        · exact (Header.includes_neither h).2 hx⟩)
      (fun x hx hm => by
        rcases List.mem_cons.1 hm with hm | hm
        · rcases Header.guard_eq x h hm with rfl | ⟨rfl, rfl⟩ | ⟨rfl, rfl⟩
          · exact .inr (Nat.le_refl _)
          · rcases pair with rfl | rfl
            · exact absurd rfl hx
            · exact absurd rfl l2
          · rcases pair with rfl | rfl
            · exact absurd rfl l2
            · exact absurd rfl hx
        · rcases known x hx hm with h | h
          · exact .inl h
          · exact .inr (by omega)) c
    have cl : Closed (u1.text ++ [h]) := by
      intro before g after eq i hi
      rcases List.append_eq_append_iff.1 eq with ⟨x, h1, h2⟩ | ⟨x, h1, h2⟩
      · cases x with
        | nil =>
          simp only [List.nil_append, List.cons.injEq] at h2
          obtain ⟨rfl, _⟩ := h2
          rw [h1]
          simpa using a i hi
        | cons y ys => simp at h2
      · cases x with
        | nil =>
          simp only [List.nil_append, List.cons.injEq] at h2
          obtain ⟨rfl, _⟩ := h2
          rw [List.append_nil] at h1
          rw [← h1]
          exact a i hi
        | cons y ys =>
          simp only [List.cons_append, List.cons.injEq] at h2
          obtain ⟨rfl, _⟩ := h2
          exact e before g ys h1 i hi
    have same : ∀ x, x ≠ other → x.guard = h.guard → x = h := by
      intro x hx hm
      rcases Header.guard_eq x h hm with rfl | ⟨rfl, rfl⟩ | ⟨rfl, rfl⟩
      · rfl
      · rcases pair with rfl | rfl
        · exact absurd rfl hx
        · exact absurd rfl l2
      · rcases pair with rfl | rfl
        · exact absurd rfl l2
        · exact absurd rfl hx
    have new : ∀ x, x ≠ other → x.guard ∈ u1.macros → x ∈ u1.text ++ [h] ∨ x.guard ∈ u.macros := by
      intro x hx hm
      rcases d x hx hm with h' | h'
      · exact .inl (List.mem_append_left _ h')
      · rcases List.mem_cons.1 h' with h' | h'
        · exact .inl (by rw [same x hx h']; simp)
        · exact .inr h'
    obtain ⟨a', b', d', e'⟩ := ih2 r (fun x hx => low x (List.mem_cons_of_mem _ hx)) (fun x hx hm => by
        rcases new x hx hm with h' | h'
        · exact .inl h'
        · rcases known x hx h' with k | k
          · exact .inl (List.mem_append_left _ (b x k))
          · exact .inr k) cl
    refine ⟨fun x hx => ?_, fun x hx => b' x (List.mem_append_left _ (b x hx)), fun x hx hm => ?_, e'⟩
    · rcases List.mem_cons.1 hx with rfl | hx
      · exact b' x (by simp)
      · exact a' x hx
    · rcases d' x hx hm with h' | h'
      · exact .inl h'
      · rcases new x hx h' with k | k
        · exact .inl (b' x k)
        · exact .inr k

end Eip
