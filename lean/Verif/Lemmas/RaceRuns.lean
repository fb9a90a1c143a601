import Verif.Lemmas.RaceFree
/-
Threads whose calls concern different places: every one of them proceeds as if it were alone.
-/
namespace Eip
open Spec

/-! ### One thread -/

namespace Thread

/-- How many socket calls the next step of a thread is. -/
def cost (t : Thread) : Nat :=
  match t.now with
  | some ⟨_, .access a _⟩ => a.cost
  | _ => 0

theorem cost_le (t : Thread) : t.cost ≤ 1 := by
  unfold cost
  split
  · exact Access.cost_le _
  · omega

/-- The calls of the thread are among these, and the one under way keeps to its places. -/
structure Among (ops : List Op) (t : Thread) : Prop where
  now : ∀ op c, t.now = some ⟨op, c⟩ → op ∈ ops ∧ c.Within op.reads op.writes
  todo : ∀ op ∈ t.todo, op ∈ ops

theorem Among.new (ops : List Op) : (Thread.new ops).Among ops :=
  { now := fun _ _ h => (nomatch h), todo := fun _ h => h }

theorem Among.step {ops : List Op} {t : Thread} (h : t.Among ops) (w : World) : (t.step w).1.Among ops := by
  obtain ⟨past, now, todo⟩ := t
  cases now with
  | some x =>
    obtain ⟨op, c⟩ := x
    cases c with
    | access a next =>
      refine ⟨?_, h.todo⟩
      rintro op' c' ⟨⟩
      have := h.now op _ rfl
      exact ⟨this.1, this.2.2.2 _⟩
    | done r =>
      cases r with
      | ub u => exact ⟨fun _ _ e => (nomatch e), fun _ e => (nomatch e)⟩
      | _ => exact ⟨fun _ _ e => (nomatch e), h.todo⟩
  | none =>
    cases todo with
    | nil => exact h
    | cons op rest =>
      refine ⟨?_, fun o ho => h.todo o (List.mem_cons_of_mem _ ho)⟩
      rintro op' c' ⟨⟩
      exact ⟨h.todo op (List.mem_cons_self ..), within_code op⟩

theorem step_env (t : Thread) (w : World) : (t.step w).2.env = w.env := by
  obtain ⟨past, now, todo⟩ := t
  cases now with
  | some x =>
    obtain ⟨op, c⟩ := x
    cases c with
    | access a next => exact a.perform_env w
    | done r => cases r <;> rfl
  | none => cases todo <;> rfl

theorem step_clock (t : Thread) (w : World) : (t.step w).2.clock = w.clock + t.cost := by
  obtain ⟨past, now, todo⟩ := t
  cases now with
  | some x =>
    obtain ⟨op, c⟩ := x
    cases c with
    | access a next => exact a.perform_clock w
    | done r => cases r <;> rfl
  | none => cases todo <;> rfl

/-- A step leaves alone the places that the calls do not write. -/
theorem step_frame {ops : List Op} {t : Thread} (h : t.Among ops) (w : World) {p : Place} (hp : ∀ op ∈ ops, p ∉ op.writes) :
    SameAt p w.s (t.step w).2.s := by
  obtain ⟨past, now, todo⟩ := t
  cases now with
  | some x =>
    obtain ⟨op, c⟩ := x
    cases c with
    | access a next =>
      have hn := h.now op _ rfl
      exact a.perform_frame w fun hw => hp op hn.1 (hn.2.2.1 p hw)
    | done r => cases r <;> exact SameAt.refl _ _
  | none => cases todo <;> exact SameAt.refl _ _

/-- The places that some of the calls read or write. -/
def Uses (ops : List Op) (p : Place) : Prop := ∃ op ∈ ops, p ∈ op.reads ∨ p ∈ op.writes

/-- A step is the same in two worlds that agree at the places of the thread. -/
theorem step_same {ops : List Op} {t : Thread} (h : t.Among ops) {w v : World} (ha : t.cost = 1 → w.env w.clock = v.env v.clock)
    (hp : ∀ p, Uses ops p → SameAt p w.s v.s) :
    (t.step w).1 = (t.step v).1 ∧ ∀ p, Uses ops p → SameAt p (t.step w).2.s (t.step v).2.s := by
  obtain ⟨past, now, todo⟩ := t
  cases now with
  | some x =>
    obtain ⟨op, c⟩ := x
    cases c with
    | access a next =>
      have hn := h.now op _ rfl
      have hs := a.perform_same ha (fun p hpp => hp p ⟨op, hn.1, hpp.imp (hn.2.1 p) (hn.2.2.1 p)⟩)
      refine ⟨?_, fun p hu => ?_⟩
      · simp only [Thread.step, hs.1]
      · by_cases hw : p ∈ a.writes
        · exact hs.2 p hw
        · exact ((a.perform_frame w hw).symm.trans (hp p hu)).trans (a.perform_frame v hw)
    | done r => cases r <;> exact ⟨rfl, hp⟩
  | none => cases todo <;> exact ⟨rfl, hp⟩

/-- Steps that are answered the same are the same socket calls. -/
theorem step_trace (t : Thread) {w v : World} (ha : t.cost = 1 → w.env w.clock = v.env v.clock) :
    ∃ evs, evs.length = t.cost ∧ (t.step w).2.trace = w.trace ++ evs ∧ (t.step v).2.trace = v.trace ++ evs := by
  obtain ⟨past, now, todo⟩ := t
  cases now with
  | some x =>
    obtain ⟨op, c⟩ := x
    cases c with
    | access a next => exact a.perform_trace ha
    | done r => cases r <;> exact ⟨[], rfl, (List.append_nil _).symm, (List.append_nil _).symm⟩
  | none => cases todo <;> exact ⟨[], rfl, (List.append_nil _).symm, (List.append_nil _).symm⟩

/-- A thread alone. -/
def solo (t : Thread) (w : World) : Nat → Thread × World
  | 0 => (t, w)
  | m + 1 => (t.solo w m).1.step (t.solo w m).2

end Thread

/-! ### All threads -/

namespace Crew

variable {plan : Nat → List Op} {s : Session} {env : Nat → Answer}

/-- What is so at any time. -/
structure Sound (plan : Nat → List Op) (s : Session) (env : Nat → Answer) (c : Crew) : Prop where
  env : c.w.env = env
  clock : c.w.clock = c.made.length
  trace : c.w.trace.length = c.made.length
  among : ∀ i, (c.threads i).Among (plan i)
  /-- places nobody writes -/
  still : ∀ p, (∀ i, ∀ op ∈ plan i, p ∉ op.writes) → SameAt p s c.w.s
  /-- every thread is where it could be alone -/
  follows : ∀ i, ∃ m, ∀ e : Nat → Answer, (∀ (k : Nat) (a : Answer), (answersTo i c)[k]? = some a → e k = a) →
    ((Thread.new (plan i)).solo ⟨s, e, 0, []⟩ m).1 = c.threads i ∧
    ((Thread.new (plan i)).solo ⟨s, e, 0, []⟩ m).2.env = e ∧
    ((Thread.new (plan i)).solo ⟨s, e, 0, []⟩ m).2.clock = (answersTo i c).length ∧
    ((Thread.new (plan i)).solo ⟨s, e, 0, []⟩ m).2.trace = deeds i c ∧
    ∀ p, Thread.Uses (plan i) p → SameAt p ((Thread.new (plan i)).solo ⟨s, e, 0, []⟩ m).2.s c.w.s

theorem Sound.start (plan : Nat → List Op) (s : Session) (env : Nat → Answer) : Sound plan s env (Crew.start plan s env) :=
  ⟨rfl, rfl, rfl, fun _ => Thread.Among.new _, fun _ _ => SameAt.refl _ _,
    fun _ => ⟨0, fun _ _ => ⟨rfl, rfl, rfl, rfl, fun _ _ => SameAt.refl _ _⟩⟩⟩

theorem step_made (c : Crew) (j : Nat) : (c.step j).made = c.made ++ List.replicate (c.threads j).cost j := by
  show c.made ++ List.replicate (((c.threads j).step c.w).2.clock - c.w.clock) j = _
  rw [Thread.step_clock, Nat.add_sub_cancel_left]

theorem answers_other {i j : Nat} (h : j ≠ i) (c : Crew) : answersTo i (c.step j) = answersTo i c := by
  rw [answersTo, answersTo, step_made, mine_other h]
  show (mine i c.made).map ((c.threads j).step c.w).2.env = _
  rw [Thread.step_env]

theorem answers_self {c : Crew} (hc : c.w.clock = c.made.length) (i : Nat) :
    answersTo i (c.step i) = answersTo i c ++ if (c.threads i).cost = 1 then [c.w.env c.w.clock] else [] := by
  rw [answersTo, answersTo, step_made]
  show (mine i _).map ((c.threads i).step c.w).2.env = _
  rw [Thread.step_env]
  have := (c.threads i).cost_le
  by_cases h : (c.threads i).cost = 1
  · rw [if_pos h, h, mine_one, hc]
    simp
  · rw [if_neg h, show (c.threads i).cost = 0 by omega, mine_zero]
    simp

theorem mine_lt {i k : Nat} {made : List Nat} (h : k ∈ mine i made) : k < made.length := by
  simp only [mine, List.mem_map, List.mem_filter] at h
  obtain ⟨x, ⟨hx, _⟩, rfl⟩ := h
  exact List.snd_lt_of_mem_zipIdx hx

theorem deeds_append {i : Nat} {made : List Nat} {trace : List Ev} (h : trace.length = made.length) (evs : List Ev) :
    (mine i made).filterMap ((trace ++ evs)[·]?) = (mine i made).filterMap (trace[·]?) := by
  have hm : ∀ k ∈ mine i made, (trace ++ evs)[k]? = trace[k]? := fun k hk =>
    List.getElem?_append_left (by rw [h]; exact mine_lt hk)
  generalize mine i made = l at hm
  induction l with
  | nil => rfl
  | cons k l ih =>
    rw [List.filterMap_cons, List.filterMap_cons, hm k (List.mem_cons_self ..),
      ih fun k' hk => hm k' (List.mem_cons_of_mem _ hk)]

theorem deeds_other {i j : Nat} (h : j ≠ i) {c : Crew} (hc : c.w.trace.length = c.made.length) :
    deeds i (c.step j) = deeds i c := by
  obtain ⟨evs, _, e, _⟩ := (c.threads j).step_trace (w := c.w) (v := c.w) fun _ => rfl
  rw [deeds, deeds, step_made, mine_other h]
  show (mine i c.made).filterMap (((c.threads j).step c.w).2.trace[·]?) = _
  rw [e, deeds_append hc]

theorem deeds_self {c : Crew} (hc : c.w.trace.length = c.made.length) (i : Nat) {evs : List Ev}
    (hl : evs.length = (c.threads i).cost) (e : ((c.threads i).step c.w).2.trace = c.w.trace ++ evs) :
    deeds i (c.step i) = deeds i c ++ evs := by
  rw [deeds, deeds, step_made]
  show (mine i _).filterMap (((c.threads i).step c.w).2.trace[·]?) = _
  rw [e]
  have := (c.threads i).cost_le
  by_cases h : (c.threads i).cost = 1
  · rw [h] at hl
    obtain ⟨ev, rfl⟩ := List.length_eq_one_iff.mp hl
    rw [h, mine_one, List.filterMap_append, deeds_append hc]
    simp [← hc]
  · have h0 : (c.threads i).cost = 0 := by omega
    rw [h0] at hl
    rw [h0, mine_zero, List.eq_nil_of_length_eq_zero hl]
    simp

theorem Sound.step {c : Crew} (hc : Sound plan s env c)
    (hplan : ∀ i j, i ≠ j → ∀ op ∈ plan i, ∀ op' ∈ plan j, Together op op') (j : Nat) : Sound plan s env (c.step j) where
  env := by
    show ((c.threads j).step c.w).2.env = env
    rw [Thread.step_env, hc.env]
  clock := by
    rw [step_made]
    show ((c.threads j).step c.w).2.clock = _
    rw [Thread.step_clock, hc.clock, List.length_append, List.length_replicate]
  trace := by
    obtain ⟨evs, hl, e, _⟩ := (c.threads j).step_trace (w := c.w) (v := c.w) fun _ => rfl
    rw [step_made]
    show ((c.threads j).step c.w).2.trace.length = _
    rw [e, List.length_append, List.length_append, List.length_replicate, hl, hc.trace]
  among i := by
    show Thread.Among (plan i) (if i = j then _ else _)
    split
    · next h => exact h ▸ (hc.among j).step c.w
    · exact hc.among i
  still p hp := (hc.still p hp).trans (Thread.step_frame (hc.among j) c.w (hp j))
  follows i := by
    obtain ⟨m, hm⟩ := hc.follows i
    by_cases h : j = i
    · subst h
      refine ⟨m + 1, fun e he => ?_⟩
      rw [answers_self hc.clock] at he ⊢
      obtain ⟨h1, h2, h3, h5, h4⟩ := hm e fun k a hk => he k a (by
        rw [List.getElem?_append_left (List.getElem?_eq_some_iff.mp hk).1]; exact hk)
      have hans : (c.threads j).cost = 1 → ((Thread.new (plan j)).solo ⟨s, e, 0, []⟩ m).2.env
          ((Thread.new (plan j)).solo ⟨s, e, 0, []⟩ m).2.clock = c.w.env c.w.clock := fun hcost => by
        rw [h2, h3]
        exact he _ _ (by rw [if_pos hcost]; simp)
      have hs := Thread.step_same (hc.among j) hans h4
      obtain ⟨evs, hl, t1, t2⟩ := Thread.step_trace (c.threads j) hans
      refine ⟨?_, ?_, ?_, ?_, ?_⟩
      · show (Thread.step _ _).1 = if j = j then _ else _
        rw [if_pos rfl, h1]
        exact hs.1
      · show (Thread.step _ _).2.env = e
        rw [Thread.step_env, h2]
      · show (Thread.step _ _).2.clock = _
        rw [Thread.step_clock, h3, h1, List.length_append]
        have := (c.threads j).cost_le
        split
        · next h => rw [h]; rfl
        · next h => rw [show (c.threads j).cost = 0 by omega]; rfl
      · show (Thread.step _ _).2.trace = _
        rw [h1, t1, h5, deeds_self hc.trace j hl t2]
      · intro p hp
        show SameAt p (Thread.step _ _).2.s _
        rw [h1]
        exact hs.2 p hp
    · refine ⟨m, fun e he => ?_⟩
      rw [answers_other h] at he ⊢
      rw [deeds_other h hc.trace]
      obtain ⟨h1, h2, h3, h5, h4⟩ := hm e he
      refine ⟨?_, h2, h3, h5, fun p hp => (h4 p hp).trans (Thread.step_frame (hc.among j) c.w fun op hop hw => ?_)⟩
      · show _ = if i = j then _ else _
        rw [if_neg (fun e => h e.symm)]
        exact h1
      · obtain ⟨op', hop', hu⟩ := hp
        have := (hplan j i h op hop op' hop').apart hw
        exact hu.elim this.1 this.2

theorem Sound.steps (hplan : ∀ i j, i ≠ j → ∀ op ∈ plan i, ∀ op' ∈ plan j, Together op op') (sched : List Nat) :
    ∀ {c : Crew}, Sound plan s env c → Sound plan s env (Crew.steps sched c) := by
  induction sched with
  | nil => exact fun h => h
  | cons j rest ih => exact fun h => ih (h.step hplan j)

/-- Calls that may be made together never race. -/
theorem Sound.no_race {c : Crew} (hc : Sound plan s env c)
    (hplan : ∀ i j, i ≠ j → ∀ op ∈ plan i, ∀ op' ∈ plan j, Together op op') : ¬ Spec.Crew.Race c := by
  rintro ⟨p, i, j, hij, β, γ, a, b, ⟨op, n, ha⟩, ⟨op', n', hb⟩, hconf⟩
  have h1 := (hc.among i).now op _ ha
  have h2 := (hc.among j).now op' _ hb
  have ht := hplan i j hij op h1.1 op' h2.1
  rcases hconf with ⟨hw, hr⟩ | ⟨hw, hr⟩
  · have := ht.apart (h1.2.2.1 p hw)
    exact hr.elim (fun h => this.1 (h2.2.1 p h)) (fun h => this.2 (h2.2.2.1 p h))
  · exact (ht.symm.apart (h2.2.2.1 p hw)).1 (h1.2.1 p hr)

end Crew

/-! ### A thread alone makes its calls one after the other -/

/-- The call was over without undefined behaviour. -/
def Ended.Fine (x : Ended) : Prop := ∀ u, x.2 ≠ .ub u

theorem results_snoc (ops : List Op) (op : Op) (w : World) (h : ∀ x ∈ (results ops w).1, Ended.Fine x) :
    results (ops ++ [op]) w = ((results ops w).1 ++ [⟨op, (op.value (results ops w).2).1⟩], (op.value (results ops w).2).2) := by
  induction ops generalizing w with
  | nil =>
    simp only [List.nil_append, results]
    rcases op.value w with ⟨(_ | _ | _), _⟩ <;> rfl
  | cons o rest ih =>
    simp only [List.cons_append, results] at h ⊢
    rcases ho : o.value w with ⟨(v | e | u), w'⟩ <;> simp only [ho] at h ⊢
    · rw [ih w' fun x hx => h x (List.mem_cons_of_mem _ hx)]
      rfl
    · rw [ih w' fun x hx => h x (List.mem_cons_of_mem _ hx)]
      rfl
    · exact absurd rfl (h _ (List.mem_cons_self ..) u)

/-- Where a thread alone is. -/
inductive Progress (ops : List Op) (w0 : World) : Thread × World → Prop
  | between (n : Nat) (past : List Ended) (w : World) (he : results (ops.take n) w0 = (past, w)) (hl : past.length = n)
      (hf : ∀ x ∈ past, Ended.Fine x) : Progress ops w0 (⟨past, none, ops.drop n⟩, w)
  | inside (n : Nat) (past : List Ended) (v w : World) (op : Op) (c : Code op.Value) (he : results (ops.take n) w0 = (past, v))
      (hl : past.length = n) (hf : ∀ x ∈ past, Ended.Fine x) (hop : ops[n]? = some op) (hc : c.alone w = op.value v) :
      Progress ops w0 (⟨past, some ⟨op, c⟩, ops.drop (n + 1)⟩, w)
  | lost (n : Nat) (past : List Ended) (w : World) (he : results (ops.take n) w0 = (past, w)) (hl : past.length = n) :
      Progress ops w0 (⟨past, none, []⟩, w)

theorem Progress.step {ops : List Op} {w0 : World} {x : Thread × World} (h : Progress ops w0 x) :
    Progress ops w0 (x.1.step x.2) := by
  cases h with
  | between n past w he hl hf =>
    by_cases hn : n < ops.length
    · rw [List.drop_eq_getElem_cons hn]
      exact .inside n past w w ops[n] _ he hl hf (List.getElem?_eq_getElem hn) (congrFun (alone_code _) w)
    · rw [List.drop_of_length_le (by omega)]
      exact .lost n past w he hl
  | lost n past w he hl => exact .lost n past w he hl
  | inside n past v w op c he hl hf hop hc =>
    cases c with
    | access a next => exact .inside n past v _ op _ he hl hf hop hc
    | done r =>
      have hv : op.value v = (r, w) := hc.symm
      have hnext : results (ops.take (n + 1)) w0 = (past ++ [⟨op, r⟩], w) := by
        rw [List.take_add_one, hop]
        show results (ops.take n ++ [op]) w0 = _
        rw [results_snoc _ _ _ (by rw [he]; exact hf), he, hv]
      cases r with
      | ub u => exact .lost (n + 1) _ w hnext (by simp [hl])
      | ok v' =>
        refine .between (n + 1) _ w hnext (by simp [hl]) fun x hx => ?_
        rcases List.mem_append.mp hx with hx | hx
        · exact hf x hx
        · rw [List.mem_singleton.mp hx]; exact fun u h => (nomatch h)
      | throw e =>
        refine .between (n + 1) _ w hnext (by simp [hl]) fun x hx => ?_
        rcases List.mem_append.mp hx with hx | hx
        · exact hf x hx
        · rw [List.mem_singleton.mp hx]; exact fun u h => (nomatch h)

theorem progress (ops : List Op) (w0 : World) (m : Nat) : Progress ops w0 ((Thread.new ops).solo w0 m) := by
  induction m with
  | zero => exact .between 0 [] w0 rfl rfl (by simp)
  | succ m ih => exact ih.step

theorem Progress.past {ops : List Op} {w0 : World} {x : Thread × World} (h : Progress ops w0 x) :
    x.1.past = (results (ops.take x.1.past.length) w0).1 := by
  cases h with
  | between n past w he hl hf => show past = _; rw [hl, he]
  | inside n past v w op c he hl hf hop hc => show past = _; rw [hl, he]
  | lost n past w he hl => show past = _; rw [hl, he]

theorem Progress.rest {ops : List Op} {w0 : World} {x : Thread × World} (h : Progress ops w0 x) (hn : x.1.now = none) :
    x.2 = (results (ops.take x.1.past.length) w0).2 := by
  cases h with
  | between n past w he hl hf => show w = (results (ops.take past.length) w0).2; rw [hl, he]
  | inside n past v w op c he hl hf hop hc => exact nomatch hn
  | lost n past w he hl => show w = (results (ops.take past.length) w0).2; rw [hl, he]

theorem results_frame (ops : List Op) (w : World) {p : Place} (hp : ∀ op ∈ ops, p ∉ op.writes) :
    SameAt p w.s (results ops w).2.s := by
  induction ops generalizing w with
  | nil => exact SameAt.refl _ _
  | cons o rest ih =>
    have h1 := (within_code o).frame w (hp o (List.mem_cons_self ..))
    rw [alone_code] at h1
    have h2 := fun v => ih v fun op h => hp op (List.mem_cons_of_mem _ h)
    simp only [results]
    rcases ho : o.value w with ⟨(v | e | u), w'⟩ <;> rw [ho] at h1
    · exact h1.trans (h2 w')
    · exact h1.trans (h2 w')
    · exact h1

namespace Crew

theorem steps_append (a b : List Nat) (c : Crew) : steps (a ++ b) c = steps b (steps a c) := by
  induction a generalizing c with
  | nil => rfl
  | cons i rest ih => exact ih (c.step i)

theorem step_other {i j : Nat} (h : j ≠ i) (c : Crew) : (c.step i).threads j = c.threads j := if_neg h

theorem step_self (i : Nat) (c : Crew) : (c.step i).threads i = ((c.threads i).step c.w).1 := if_pos rfl

/-- A thread can finish its call. -/
theorem returns (i : Nat) {op : Op} (code : Code op.Value) (c : Crew) (h : (c.threads i).now = some ⟨op, code⟩) :
    ∃ n, ((steps (List.replicate n i) c).threads i).now = none ∧
      (((steps (List.replicate n i) c).threads i).todo = (c.threads i).todo ∨
        ((steps (List.replicate n i) c).threads i).todo = []) := by
  induction code generalizing c with
  | done r =>
    refine ⟨1, ?_⟩
    show ((c.step i).threads i).now = none ∧ (((c.step i).threads i).todo = _ ∨ ((c.step i).threads i).todo = [])
    rw [step_self, Thread.step, h]
    cases r with
    | ub u => exact ⟨rfl, .inr rfl⟩
    | _ => exact ⟨rfl, .inl rfl⟩
  | access a next ih =>
    have e : ((c.step i).threads i) = ⟨(c.threads i).past, some ⟨op, next (a.perform c.w).1⟩, (c.threads i).todo⟩ := by
      rw [step_self, Thread.step, h]
    obtain ⟨n, h1, h2⟩ := ih (a.perform c.w).1 (c.step i) (by rw [e])
    rw [e] at h2
    exact ⟨n + 1, h1, h2⟩

/-- A thread can finish all its calls. -/
theorem finishes (i : Nat) (c : Crew) : ∃ n, ((steps (List.replicate n i) c).threads i).now = none ∧
    ((steps (List.replicate n i) c).threads i).todo = [] := by
  have idle : ∀ l : List Op, ∀ c : Crew, (c.threads i).todo = l → (c.threads i).now = none →
      ∃ n, ((steps (List.replicate n i) c).threads i).now = none ∧ ((steps (List.replicate n i) c).threads i).todo = [] := by
    intro l
    induction l with
    | nil => exact fun c ht hn => ⟨0, hn, ht⟩
    | cons op rest ih =>
      intro c ht hn
      have e : ((c.step i).threads i) = ⟨(c.threads i).past, some ⟨op, op.code⟩, rest⟩ := by
        rw [step_self, Thread.step, hn, ht]
      obtain ⟨n, h1, h2⟩ := returns i op.code (c.step i) (by rw [e])
      rw [e] at h2
      rcases h2 with h2 | h2
      · obtain ⟨m, h3, h4⟩ := ih _ h2 h1
        refine ⟨1 + (n + m), ?_⟩
        rw [← List.replicate_append_replicate, ← List.replicate_append_replicate, steps_append, steps_append]
        exact ⟨h3, h4⟩
      · refine ⟨1 + n, ?_⟩
        rw [← List.replicate_append_replicate, steps_append]
        exact ⟨h1, h2⟩
  cases hn : (c.threads i).now with
  | none => exact idle _ c rfl hn
  | some x =>
    obtain ⟨op, code⟩ := x
    obtain ⟨n, h1, _⟩ := returns i code c hn
    obtain ⟨m, h2, h3⟩ := idle _ _ rfl h1
    refine ⟨n + m, ?_⟩
    rw [← List.replicate_append_replicate, steps_append]
    exact ⟨h2, h3⟩

end Crew
end Eip
