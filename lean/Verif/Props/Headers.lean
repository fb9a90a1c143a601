import Verif.Lemmas.Headers
/-
C115: the headers of the library can be included in any combination.
-/
namespace Eip

theorem untouched_guarded {t : Text} (h : t.Untouched) : Guarded t := by
  obtain ⟨h1, _⟩ := h
  exact ⟨by rw [h1]; exact List.nodup_nil, by rw [h1]; intro x hx; cases hx⟩

/-- C115 does not hold: whatever else is included and in whatever order, no translation unit sees both `IdentityItemData` and
`RegisterSessionData`: the headers that declare them have the same include guard. -/
theorem c115_violated {t t' : Text} (start : t.Untouched) {hs : List Header} (h : Expands hs t t') :
    ¬ (t'.Sees "IdentityItemData" ∧ t'.Sees "RegisterSessionData") := by
  rintro ⟨⟨a, ha, na⟩, b, hb, nb⟩
  have da : ∀ x : Header, "IdentityItemData" ∈ x.declares → x = .identityItemData := by intro x; cases x <;> decide
  have db : ∀ x : Header, "RegisterSessionData" ∈ x.declares → x = .registerSessionData := by intro x; cases x <;> decide
  obtain rfl := da a na
  obtain rfl := db b nb
  obtain ⟨⟨nd, _⟩, _⟩ := h.guarded (untouched_guarded start)
  have key : ∀ l : List Header, (l.map Header.guard).Nodup → .identityItemData ∈ l → .registerSessionData ∈ l → False := by
    intro l
    induction l with
    | nil => intro _ h; cases h
    | cons x l ih =>
      intro hn h1 h2
      simp only [List.map_cons, List.nodup_cons] at hn
      rcases List.mem_cons.1 h1 with rfl | k1
      · rcases List.mem_cons.1 h2 with k2 | k2
        · cases k2
        · exact hn.1 (List.mem_map.2 ⟨_, k2, rfl⟩)
      · rcases List.mem_cons.1 h2 with rfl | k2
        · exact hn.1 (List.mem_map.2 ⟨_, k1, rfl⟩)
        · exact ih hn.2 k1 k2
  exact key _ nd ha hb

/-- C115, what always holds: preprocessing comes to an end, with one result, and no header is in it twice. -/
theorem c115_once_partial {t : Text} (start : t.Untouched) (hs : List Header) :
    ∃ t', Expands hs t t' ∧ t'.text.Nodup ∧ ∀ t'', Expands hs t t'' → t'' = t' := by
  obtain ⟨t', h⟩ := expand_total 7 hs t (fun h _ => by cases h <;> decide)
  refine ⟨t', h, ?_, fun t'' h' => h'.unique h⟩
  have := (h.guarded (untouched_guarded start)).1.1
  exact List.Pairwise.of_map Header.guard (fun a b hne e => hne (congrArg _ e)) this

/-- C115 (partial: not both of the headers that share a guard). Everything the included headers declare is declared in the
translation unit, and every header in it finds the names it uses declared before it. Missing: the two headers together. -/
theorem c115_all_partial {t t' : Text} (start : t.Untouched) {hs : List Header} (h : Expands hs t t')
    (notBoth : ¬ (.identityItemData ∈ hs ∧ .registerSessionData ∈ hs)) :
    (∀ x ∈ hs, ∀ name ∈ x.declares, t'.Sees name) ∧ t'.InOrder := by
  obtain ⟨other, pair, no⟩ : ∃ other : Header, (other = .identityItemData ∨ other = .registerSessionData) ∧ other ∉ hs := by
    by_cases h : Header.identityItemData ∈ hs
    · exact ⟨_, .inr rfl, fun h' => notBoth ⟨h, h'⟩⟩
    · exact ⟨_, .inl rfl, h⟩
  obtain ⟨a, _, _, c⟩ := h.complete other pair 7 (fun x hx => ⟨by cases x <;> decide, fun e => no (e ▸ hx)⟩)
    (fun x _ hm => absurd hm (start.2 x)) (by
      rw [start.1]
      intro before h after e
      simp at e)
  refine ⟨fun x hx n hn => ⟨x, a x hx, hn⟩, ?_⟩
  intro before x after e n hn
  obtain ⟨g, hg, hn'⟩ := Header.uses_declared x n hn
  exact ⟨g, c.closure 6 before x after e g hg, hn'⟩

/-- C115, which of the two is missing: the one that is included second. Both headers are included directly, since no header of
the library includes either. -/
theorem c115_violated_second {t t' : Text} (start : t.Untouched) (before after : List Header) :
    (Expands (before ++ .identityItemData :: after) t t' → .registerSessionData ∉ before →
      t'.Sees "IdentityItemData" ∧ ¬ t'.Sees "RegisterSessionData") ∧
    (Expands (before ++ .registerSessionData :: after) t t' → .identityItemData ∉ before →
      t'.Sees "RegisterSessionData" ∧ ¬ t'.Sees "IdentityItemData") := by
  constructor
  · intro h no
    have e : before ++ Header.identityItemData :: after = (before ++ [.identityItemData]) ++ after := by simp
    rw [e] at h
    obtain ⟨m, h1, h2⟩ := h.split
    obtain ⟨a, _⟩ := c115_all_partial start h1 (by simp [no])
    obtain ⟨x, hx, hn⟩ := a .identityItemData (by simp) "IdentityItemData" (by decide)
    have s : t'.Sees "IdentityItemData" := ⟨x, h2.keeps x hx, hn⟩
    exact ⟨s, fun s' => c115_violated start h ⟨s, s'⟩⟩
  · intro h no
    have e : before ++ Header.registerSessionData :: after = (before ++ [.registerSessionData]) ++ after := by simp
    rw [e] at h
    obtain ⟨m, h1, h2⟩ := h.split
    obtain ⟨a, _⟩ := c115_all_partial start h1 (by simp [no])
    obtain ⟨x, hx, hn⟩ := a .registerSessionData (by simp) "RegisterSessionData" (by decide)
    have s : t'.Sees "RegisterSessionData" := ⟨x, h2.keeps x hx, hn⟩
    exact ⟨s, fun s' => c115_violated start h ⟨s', s⟩⟩

/-- C115 for the library itself: every source file and every test sees all names of the library it uses. -/
theorem c115_own_partial {t t' : Text} (start : t.Untouched) (file : String) (hs : List Header) (names : List String)
    (own : (file, hs, names) ∈ ownUnits) (h : Expands hs t t') : (∀ name ∈ names, t'.Sees name) ∧ t'.InOrder := by
  have table : ownUnits.all (fun u => !(u.2.1.contains .identityItemData && u.2.1.contains .registerSessionData) &&
      u.2.2.all (fun n => (u.2.1 ++ u.2.1.flatMap (Header.closure 6)).any (fun g => g.declares.contains n))) = true := by
    decide +kernel
  have hu := List.all_eq_true.1 table _ own
  simp only [Bool.and_eq_true] at hu
  obtain ⟨h1, h2⟩ := hu
  have nb : ¬ (.identityItemData ∈ hs ∧ .registerSessionData ∈ hs) := by
    rintro ⟨a, b⟩
    simp [a, b] at h1
  obtain ⟨a, b⟩ := c115_all_partial start h nb
  refine ⟨fun n hn => ?_, b⟩
  obtain ⟨g, hg, hn'⟩ := List.any_eq_true.1 (List.all_eq_true.1 h2 n hn)
  have hn' : n ∈ g.declares := by simpa using hn'
  rcases List.mem_append.1 hg with hg | hg
  · exact a g hg n hn'
  · obtain ⟨x, hx, hg⟩ := List.mem_flatMap.1 hg
    obtain ⟨other, pair, no⟩ : ∃ other : Header, (other = .identityItemData ∨ other = .registerSessionData) ∧ other ∉ hs := by
      by_cases h : Header.identityItemData ∈ hs
      · exact ⟨_, .inr rfl, fun h' => nb ⟨h, h'⟩⟩
      · exact ⟨_, .inl rfl, h⟩
    obtain ⟨a, _, _, c⟩ := h.complete other pair 7 (fun x hx => ⟨by cases x <;> decide, fun e => no (e ▸ hx)⟩)
      (fun x _ hm => absurd hm (start.2 x)) (by
        rw [start.1]
        intro before h after e
        simp at e)
    obtain ⟨p, q, e⟩ := List.append_of_mem (a x hx)
    exact ⟨g, by rw [e]; exact List.mem_append_left _ (c.closure 6 p x q e g hg), hn'⟩

/-- A program that scans for devices and parses registrations itself. -/
example : ∃ t', Expands [.session, .identityItemData, .registerSessionData] ⟨[], []⟩ t' ∧ t'.Sees "IdentityItemData" ∧
    ¬ t'.Sees "RegisterSessionData" := by
  have start : Text.Untouched ⟨[], []⟩ := ⟨rfl, by simp⟩
  obtain ⟨t', h, _⟩ := c115_once_partial start [.session, .identityItemData, .registerSessionData]
  exact ⟨t', h, (c115_violated_second start [.session] [.registerSessionData]).1 h (by decide)⟩

example : ¬ (Header.identityItemData ∈ [Header.session, .identityItemData, .tcpSocket] ∧
    Header.registerSessionData ∈ [Header.session, .identityItemData, .tcpSocket]) := by decide

example : ∃ x ∈ ownUnits, x.1 = "src/session.cpp" ∧ "RegisterSessionData" ∈ x.2.2 ∧ x.2.2.length = 20 := by decide +kernel

end Eip
