import Verif.Lemmas.ThreadRuns
/-
A call that transfers data, from its beginning to its end.
-/
namespace Eip
open Spec

variable {α : Type}

/-- The socket calls of a call after a piece: one more or not. -/
def Extends (w w' : World) (ms ms' : List Nat) : Prop :=
  (ms' = ms ∧ w'.clock = w.clock) ∨ (ms' = ms ++ [w.clock] ∧ w'.clock = w.clock + 1)

/-- The call goes on, or it is over with the result it has alone. -/
def Proceeds (s : Session) (env : Nat → Answer) (w w' : World) (ms : List Nat) (t0 t : Task α) : Prop :=
  ∃ ms', Extends w w' ms ms' ∧
    (At s env w'.trace w'.s.recvBuffer ms' t0 t ∨
      ∃ r, t = .done r ∧ ∀ g, Faithful env w'.trace ms' g → r = (t0.alone (facing s (ms'.map g))).1)

theorem facing_at {s : Session} {g : Nat → Answer} (l : List Nat) {n k : Nat} (h : l[n]? = some k) :
    (facing s (l.map g)).env n = g k := by
  simp only [facing, List.getElem?_map, h, Option.map_some, Option.getD_some]

theorem facing_fails {s : Session} {env g : Nat → Answer} {trace : List Ev} {l : List Nat} (hg : Faithful env trace l g)
    {n k : Nat} (h : l[n]? = some k) : ((facing s (l.map g)).env n).fails = (env k).fails := by
  rw [facing_at l h]
  exact (hg k (List.mem_of_getElem? h)).1

theorem facing_data {s : Session} {env g : Nat → Answer} {trace : List Ev} {l : List Nat} (hg : Faithful env trace l g)
    {n k : Nat} (h : l[n]? = some k) (he : ∃ s d, trace[k]? = some (.received s d true)) :
    ((facing s (l.map g)).env n).data.take 4096 = remains (trace.drop (k + 1)) (delivered env k) := by
  rw [facing_at l h]
  exact (hg k (List.mem_of_getElem? h)).2 he

theorem receiveLength_kept {env : Nat → Answer} {w : World} (hc : w.clock = w.trace.length)
    (h : (env w.clock).fails = false) (sk : Sock) (d : Bytes) :
    Kept env (w.after (.received sk d true)).trace (w.s.receiveInto (delivered env w.clock)).recvBuffer w.clock := by
  refine ⟨h, ?_, ⟨sk, d, ?_⟩, ?_⟩
  · show _ < (w.trace ++ [_]).length
    rw [List.length_append, hc]
    simp
  · show (w.trace ++ [_])[w.clock]? = _
    rw [hc]
    simp
  · rw [take_receiveInto, World.after]
    show _ = remains ((w.trace ++ [_]).drop _) _
    rw [List.drop_eq_nil_of_le (by simp; omega), remains_nil]

theorem At.step {s : Session} {env : Nat → Answer} {w : World} {ms : List Nat} {t0 : Task α} {β : Type} {q : Prog World β}
    {k : Res β → Task α} (h : At s env w.trace w.s.recvBuffer ms t0 (.next β q k)) (he : w.env = env)
    (hid : w.s.sessionId = s.sessionId) (hc : w.clock = w.trace.length) :
    Proceeds s env w (q w).2 ms t0 (k (q w).1) := by
  generalize ht : (Task.next β q k) = t at h
  cases h with
  | fresh h =>
    cases h with
    | rr request after h =>
      cases ht
      refine ⟨[], Or.inl ⟨rfl, rfl⟩, Or.inl ?_⟩
      show At s env w.trace w.s.recvBuffer [] (rrStart request after) (rrMade (request w.s.sessionId) after)
      rw [hid]
      exact .made h
    | receive q h =>
      cases ht
      by_cases hf : (w.env w.clock).fails = true
      · obtain ⟨ev, e⟩ := receiveLength_fails (s := .io) hf
        rw [e]
        refine ⟨[w.clock], Or.inr ⟨rfl, rfl⟩, Or.inr ⟨_, rfl, fun g hg => ?_⟩⟩
        obtain ⟨ev', e'⟩ := receiveLength_fails (s := .io) (w := facing s ([w.clock].map g))
          ((facing_fails hg (n := 0) rfl).trans (he ▸ hf))
        rw [ioStart, alone_piece_throw e']
      · have hf : (w.env w.clock).fails = false := Bool.eq_false_iff.mpr hf
        rw [receiveLength_works hf]
        refine ⟨[w.clock], Or.inr ⟨rfl, rfl⟩, Or.inl ?_⟩
        rw [he]
        exact .got h (receiveLength_kept hc (he ▸ hf) _ _)
    | send o a =>
      cases ht
      rcases send_cases o with ⟨bs, ho⟩ | ⟨e, ho⟩ | ⟨u, ho⟩
      · by_cases hf : (w.env w.clock).fails = true
        · rw [Prog.bind_throw (send_fails ho .io hf)]
          refine ⟨[w.clock], Or.inr ⟨rfl, rfl⟩, Or.inr ⟨_, rfl, fun g hg => ?_⟩⟩
          rw [sendStart, Task.alone_last, Prog.bind_throw (send_fails ho .io ((facing_fails hg (n := 0) rfl).trans (he ▸ hf)))]
        · have hf : (w.env w.clock).fails = false := Bool.eq_false_iff.mpr hf
          rw [Prog.bind_ok (send_works ho .io hf)]
          refine ⟨[w.clock], Or.inr ⟨rfl, rfl⟩, Or.inr ⟨_, rfl, fun g hg => ?_⟩⟩
          rw [sendStart, Task.alone_last, Prog.bind_ok (send_works ho .io ((facing_fails hg (n := 0) rfl).trans (he ▸ hf)))]
          rfl
      · rw [Prog.bind_throw (ho _ _)]
        refine ⟨[], Or.inl ⟨rfl, rfl⟩, Or.inr ⟨_, rfl, fun g hg => ?_⟩⟩
        rw [sendStart, Task.alone_last, Prog.bind_throw (ho _ _)]
      · rw [Prog.bind_ub (ho _ _)]
        refine ⟨[], Or.inl ⟨rfl, rfl⟩, Or.inr ⟨_, rfl, fun g hg => ?_⟩⟩
        rw [sendStart, Task.alone_last, Prog.bind_ub (ho _ _)]
  | @made request after h =>
    cases ht
    rcases send_cases (request s.sessionId).obj with ⟨bs, ho⟩ | ⟨e, ho⟩ | ⟨u, ho⟩
    · by_cases hf : (w.env w.clock).fails = true
      · rw [rrGuard_throw (send_fails ho .tcp hf)]
        refine ⟨[w.clock], Or.inr ⟨rfl, rfl⟩, Or.inr ⟨_, rfl, fun g hg => ?_⟩⟩
        rw [alone_rrStart, rrMade]
        exact (congrArg Prod.fst (alone_piece_throw (rrGuard_throw
          (send_fails ho .tcp ((facing_fails hg (n := 0) rfl).trans (he ▸ hf)))))).symm
      · have hf : (w.env w.clock).fails = false := Bool.eq_false_iff.mpr hf
        rw [rrGuard_ok (send_works ho .tcp hf)]
        exact ⟨[w.clock], Or.inr ⟨rfl, rfl⟩, Or.inl (.sent h ho (he ▸ hf))⟩
    · rw [rrGuard_throw (ho _ _)]
      refine ⟨[], Or.inl ⟨rfl, rfl⟩, Or.inr ⟨_, rfl, fun g hg => ?_⟩⟩
      rw [alone_rrStart, rrMade]
      exact (congrArg Prod.fst (alone_piece_throw (rrGuard_throw (ho _ _)))).symm
    · rw [rrGuard_ub (ho _ _)]
      refine ⟨[], Or.inl ⟨rfl, rfl⟩, Or.inr ⟨_, rfl, fun g hg => ?_⟩⟩
      rw [alone_rrStart, rrMade]
      exact (congrArg Prod.fst (alone_piece_ub (rrGuard_ub (ho _ _)))).symm
  | @sent request after k1 bs h ho hk =>
    cases ht
    by_cases hf : (w.env w.clock).fails = true
    · obtain ⟨ev, e⟩ := receiveLength_fails (s := .tcp) hf
      rw [rrGuard_throw e]
      refine ⟨[k1, w.clock], Or.inr ⟨rfl, rfl⟩, Or.inr ⟨_, rfl, fun g hg => ?_⟩⟩
      have h0 := (facing_fails (s := s) hg (n := 0) rfl).trans hk
      have h1 := (facing_fails (s := s) hg (n := 1) rfl).trans (he ▸ hf)
      rw [alone_rrStart]
      refine Eq.trans ?_ (congrArg Prod.fst (alone_rrMade ho after h0)).symm
      obtain ⟨ev', e'⟩ := receiveLength_fails (s := .tcp)
        (w := (facing s ([k1, w.clock].map g)).after (.sent .tcp bs true)) h1
      exact (congrArg Prod.fst (alone_piece_throw (rrGuard_throw e'))).symm
    · have hf : (w.env w.clock).fails = false := Bool.eq_false_iff.mpr hf
      rw [rrGuard_ok (receiveLength_works hf)]
      refine ⟨[k1, w.clock], Or.inr ⟨rfl, rfl⟩, Or.inl ?_⟩
      rw [he]
      exact .replied h ho hk (receiveLength_kept hc (he ▸ hf) _ _)
  | @replied request after k1 bs k2 h ho hk hk' =>
    cases ht
    obtain ⟨r, e, _⟩ := Looks.rrEnd (request s.sessionId) (h (delivered env k2).length) w w rfl rfl
    refine ⟨[k1, k2], Or.inl ⟨rfl, by rw [e]⟩, Or.inr ⟨_, rfl, fun g hg => ?_⟩⟩
    have hw : (rrEnd (request s.sessionId) after (delivered env k2).length w).2 = w := by rw [e]
    rw [hw] at hg
    rw [alone_rrStart]
    have h0 := (facing_fails (s := s) hg (n := 0) rfl).trans hk
    have h1 := (facing_fails (s := s) hg (n := 1) rfl).trans hk'.worked
    refine Eq.trans ?_ (congrArg Prod.fst (alone_rrMade ho after h0)).symm
    exact (alone_look (q := rrEnd (request s.sessionId) after) (Looks.rrEnd _ (h _)) hk' hid
      (facing_data (s := s) hg (n := 1) rfl hk'.event) rfl
      (v := (facing s ([k1, k2].map g)).after (.sent .tcp bs true))
      (rrGuard_ok (receiveLength_works h1))).symm
  | @got q k1 h hk =>
    cases ht
    obtain ⟨r, e, _⟩ := h (delivered env k1).length w w rfl rfl
    refine ⟨[k1], Or.inl ⟨rfl, by rw [e]⟩, Or.inr ⟨_, rfl, fun g hg => ?_⟩⟩
    have hw : (q (delivered env k1).length w).2 = w := by rw [e]
    rw [hw] at hg
    have h1 := (facing_fails (s := s) hg (n := 0) rfl).trans hk.worked
    exact (alone_look (q := q) (h _) hk hid (facing_data (s := s) hg (n := 0) rfl hk.event) rfl
      (v := facing s ([k1].map g)) (receiveLength_works h1)).symm

theorem At.going {s : Session} {env : Nat → Answer} {trace : List Ev} {buf : Bytes} {ms : List Nat} {t0 : Task α} {r : Res α}
    (h : At s env trace buf ms t0 (.done r)) : False := by
  generalize hd : Task.done r = t at h
  cases h with
  | fresh h => cases h <;> cases hd
  | made => cases hd
  | sent => cases hd
  | replied => cases hd
  | got => cases hd

/-! ### A call among others -/

variable {ops : Nat → Op}

/-- How far call `i` has come: over, or at some stage. -/
def Stands (s : Session) (env : Nat → Answer) (i : Nat) (p : Pool ops) : Prop :=
  (∃ r, p.tasks i = .done r) ∨ At s env p.w.trace p.w.s.recvBuffer (mine i p.made) (ops i).task (p.tasks i)

theorem Extends.mine {w w' : World} {i : Nat} {made ms' : List Nat} (hc : w.clock = made.length)
    (h : Extends w w' (mine i made) ms') : Spec.mine i (made ++ List.replicate (w'.clock - w.clock) i) = ms' := by
  rcases h with ⟨h, e⟩ | ⟨h, e⟩
  · rw [e, Nat.sub_self, mine_zero, h]
  · rw [e, Nat.add_sub_cancel_left, mine_one, h, hc]

/-- The step of a call that is not over. -/
theorem own_step {s : Session} {env : Nat → Answer} {i : Nat} {p : Pool ops} (hf : Fits s env p)
    (h : At s env p.w.trace p.w.s.recvBuffer (mine i p.made) (ops i).task (p.tasks i)) :
    At s env (p.step i).w.trace (p.step i).w.s.recvBuffer (mine i (p.step i).made) (ops i).task ((p.step i).tasks i) ∨
      ∃ r', (p.step i).tasks i = .done r' ∧ ∀ g, Faithful env (p.step i).w.trace (mine i (p.step i).made) g →
        r' = ((ops i).task.alone (facing s ((mine i (p.step i).made).map g))).1 := by
  cases ht : p.tasks i with
  | done r' =>
    rw [ht] at h
    exact h.going.elim
  | next β q k =>
    rw [ht] at h
    obtain ⟨ms', hx, h'⟩ := h.step hf.env hf.id (hf.clock.trans hf.trace.symm)
    have hmine := hx.mine hf.clock
    rw [step_next ht]
    show At _ _ _ _ (mine i (p.made ++ _)) _ (p.update i _ i) ∨ ∃ r', p.update i _ i = _ ∧ ∀ g, Faithful _ _ (mine i (p.made ++ _)) g →
      r' = (Task.alone _ (facing s ((mine i (p.made ++ _)).map g))).1
    rw [p.update_self, hmine]
    exact h'

theorem Stands.step {s : Session} {env : Nat → Answer} {i : Nat} {p : Pool ops} (hf : Fits s env p) (h : Stands s env i p)
    (j : Nat) : Stands s env i (p.step j) := by
  by_cases hj : i = j
  · subst hj
    rcases h with ⟨r, h⟩ | h
    · rw [step_done h]
      exact Or.inl ⟨r, h⟩
    · rcases own_step hf h with h | ⟨r, h, _⟩
      · exact Or.inr h
      · exact Or.inl ⟨r, h⟩
  · obtain ⟨evs, _, hm, hmade, htasks⟩ := hf.step j
    rw [Stands, htasks i hj, hmade, mine_other (Ne.symm hj), hm.trace, hm.buffer]
    rcases h with h | h
    · exact Or.inl h
    · exact Or.inr (h.more evs)

theorem Stands.steps {s : Session} {env : Nat → Answer} {i : Nat} {p : Pool ops} (hf : Fits s env p) (h : Stands s env i p)
    (l : List Nat) : Stands s env i (p.steps l) := by
  induction l generalizing p with
  | nil => exact h
  | cons j l ih =>
    have h' := h.step hf j
    obtain ⟨_, hf', _⟩ := hf.step j
    exact ih hf' h'

theorem Stands.start {i : Nat} (h : Transfers (ops i)) (s : Session) (env : Nat → Answer) : Stands s env i (Pool.start ops s env) :=
  Or.inr (.fresh (shape_task h))

/-- The result of a call. -/
theorem finish {s : Session} {env : Nat → Answer} {i : Nat} (hin : ∀ j, Inside (ops j)) (hi : Transfers (ops i))
    (schedule : List Nat) {r : Res (ops i).Value} (h : ∀ r', ¬ Over i ((Pool.start ops s env).steps schedule) r')
    (hr : Over i (((Pool.start ops s env).steps schedule).step i) r) :
    (((Pool.start ops s env).steps schedule).step i).w.env = env ∧ ∀ g,
      Faithful env (((Pool.start ops s env).steps schedule).step i).w.trace
        (mine i (((Pool.start ops s env).steps schedule).step i).made) g →
      r = ((ops i).value (facing s ((mine i (((Pool.start ops s env).steps schedule).step i).made).map g))).1 := by
  have hf := (Fits.start hin s env).steps schedule
  have hs := (Stands.start hi s env).steps (Fits.start hin s env) schedule
  generalize (Pool.start ops s env).steps schedule = p at *
  obtain ⟨_, hf', _⟩ := hf.step i
  refine ⟨hf'.env, fun g hg => ?_⟩
  rcases hs with ⟨r', hs⟩ | hs
  · exact (h r' hs).elim
  · rcases own_step hf hs with h' | ⟨r', h', e⟩
    · rw [hr] at h'
      exact h'.going.elim
    · rw [hr] at h'
      cases h'
      rw [e g hg, alone_task]

end Eip
