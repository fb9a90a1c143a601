import Verif.Spec.Rehearsed
import Verif.Lemmas.Strategy
import Verif.Lemmas.Waiting
import Verif.Props.Possible
import Verif.Props.TestSocket
/-
A session on fake sockets.
-/
namespace Eip
open Spec

/-! ### The sockets answer every call, in one way -/

theorem receive_le (t : TestSocket) (n : Nat) : (t.receive n).1.length ≤ n := by
  simp only [TestSocket.receive, List.length_take]
  omega

/-- The answer the sockets give. -/
def Fakes.answer (k : Fakes) : SockReq → Answer
  | .receive s => ⟨false, ((k.sock s).receive 4096).1, 0⟩
  | _ => ⟨false, [], 0⟩

theorem Fakes.take_answer (k : Fakes) (call : SockReq) : ∃ k', k.take (call.event (k.answer call)) = some k' := by
  cases call with
  | receive s =>
    have e : List.take 4096 ((k.sock s).receive 4096).1 = ((k.sock s).receive 4096).1 := List.take_of_length_le (receive_le _ _)
    exact ⟨_, by simp [SockReq.event, Fakes.answer, Fakes.take, e]; rfl⟩
  | _ => exact ⟨_, rfl⟩

theorem Fakes.take_one {k k1 k2 : Fakes} {call : SockReq} {a b : Answer} (h1 : k.take (call.event a) = some k1)
    (h2 : k.take (call.event b) = some k2) : call.event a = call.event b := by
  cases call with
  | receive s =>
    simp only [SockReq.event] at h1 h2 ⊢
    cases ha : a.fails <;> cases hb : b.fails <;> rw [ha] at h1 <;> rw [hb] at h2 <;>
      simp only [Bool.not_false, Bool.not_true, Fakes.take] at h1 h2 <;> try cases h1
    · split at h1
      · split at h2
        · next e1 e2 => rw [e1, e2]
        · cases h2
      · cases h1
    · cases h2
  | _ =>
    simp only [SockReq.event] at h1 h2 ⊢
    cases ha : a.fails <;> cases hb : b.fails <;> rw [ha] at h1 <;> rw [hb] at h2 <;>
      simp only [Bool.not_false, Bool.not_true, Fakes.take] at h1 h2 <;> first | rfl | (cases h1; done) | (cases h2; done)

theorem Fakes.takeAll_append (k : Fakes) (a b : List Ev) : k.takeAll (a ++ b) = (k.takeAll a).bind (·.takeAll b) := by
  induction a generalizing k with
  | nil => rfl
  | cons e a ih =>
    simp only [List.cons_append, Fakes.takeAll]
    cases k.take e with
    | none => rfl
    | some k1 => exact ih k1

theorem exec_fakes {ρ : Type} (t : Strategy ρ) (k : Fakes) (n : Nat) (trace : List Ev) :
    ∃ answers : List Answer, ∀ env : Nat → Answer, (∀ i a, answers[i]? = some a → env (n + i) = a) →
      ∃ evs k', (t.exec env n trace).2.trace = trace ++ evs ∧ k.takeAll evs = some k' := by
  induction t generalizing n trace k with
  | done r s => exact ⟨[], fun env _ => ⟨[], k, by simp [Strategy.exec], rfl⟩⟩
  | ask call next ih =>
    obtain ⟨k1, h1⟩ := k.take_answer call
    obtain ⟨as, h⟩ := ih (call.event (k.answer call)) k1 (n + 1) (trace ++ [call.event (k.answer call)])
    refine ⟨k.answer call :: as, fun env he => ?_⟩
    have e0 : env n = k.answer call := he 0 _ rfl
    obtain ⟨evs, k', g1, g2⟩ := h env fun i a hi => by
      have := he (i + 1) a hi
      rwa [show n + 1 + i = n + (i + 1) by omega]
    refine ⟨call.event (k.answer call) :: evs, k', ?_, ?_⟩
    · simp only [Strategy.exec, e0]
      rw [g1, List.append_assoc]; rfl
    · simp only [Fakes.takeAll, h1]; exact g2

theorem exec_fakes_one {ρ : Type} (t : Strategy ρ) (k k1 k2 : Fakes) (env env' : Nat → Answer) (n n' : Nat)
    (trace trace' evs evs' : List Ev)
    (h : (t.exec env n trace).2.trace = trace ++ evs) (f : k.takeAll evs = some k1)
    (h' : (t.exec env' n' trace').2.trace = trace' ++ evs') (f' : k.takeAll evs' = some k2) :
    evs = evs' ∧ (t.exec env n trace).1 = (t.exec env' n' trace').1 ∧ (t.exec env n trace).2.s = (t.exec env' n' trace').2.s := by
  induction t generalizing n n' trace trace' k evs evs' with
  | done r s =>
    simp only [Strategy.exec] at h h' ⊢
    have := List.self_eq_append_right.1 h
    have := List.self_eq_append_right.1 h'
    subst evs evs'
    simp
  | ask call next ih =>
    simp only [Strategy.exec] at h h' ⊢
    obtain ⟨es, g, -⟩ := exec_trace (next (call.event (env n))) env (n + 1) (trace ++ [call.event (env n)])
    obtain ⟨es', g', -⟩ := exec_trace (next (call.event (env' n'))) env' (n' + 1) (trace' ++ [call.event (env' n')])
    have e : evs = call.event (env n) :: es := by
      rw [g, List.append_assoc] at h
      exact (List.append_cancel_left h).symm
    have e' : evs' = call.event (env' n') :: es' := by
      rw [g', List.append_assoc] at h'
      exact (List.append_cancel_left h').symm
    subst e e'
    simp only [Fakes.takeAll] at f f'
    rcases t1 : k.take (call.event (env n)) with _ | ka
    · rw [t1] at f; cases f
    rcases t2 : k.take (call.event (env' n')) with _ | kb
    · rw [t2] at f'; cases f'
    have ev := Fakes.take_one t1 t2
    have ek : ka = kb := by rw [ev, t2] at t1; exact (Option.some.inj t1).symm
    subst ek
    rw [t1] at f
    rw [t2] at f'
    rw [← ev] at g' ⊢
    obtain ⟨a, b, c⟩ := ih (call.event (env n)) ka (n + 1) (n' + 1) _ _ es es' g f g' f'
    exact ⟨by rw [a], b, c⟩

/-- What a strategy does when the calls are answered the same way. -/
theorem exec_shift {ρ : Type} (t : Strategy ρ) (env env' : Nat → Answer) (n m : Nat) (trace trace' evs : List Ev)
    (h : (t.exec env n trace).2.trace = trace ++ evs) (same : ∀ i < evs.length, env' (m + i) = env (n + i)) :
    t.exec env' m trace' = ((t.exec env n trace).1, ⟨(t.exec env n trace).2.s, env', m + evs.length, trace' ++ evs⟩) := by
  induction t generalizing n m trace trace' evs with
  | done r s =>
    simp only [Strategy.exec] at h ⊢
    have := List.self_eq_append_right.1 h
    subst evs
    simp
  | ask call next ih =>
    simp only [Strategy.exec] at h ⊢
    obtain ⟨es, g, -⟩ := exec_trace (next (call.event (env n))) env (n + 1) (trace ++ [call.event (env n)])
    have e : evs = call.event (env n) :: es := by
      rw [g, List.append_assoc] at h
      exact (List.append_cancel_left h).symm
    subst e
    have e0 : env' m = env n := same 0 (by simp)
    rw [e0, ih _ (n + 1) (m + 1) (trace ++ [call.event (env n)]) (trace' ++ [call.event (env n)]) es g fun i hi => by
      have := same (i + 1) (by simpa using hi)
      rwa [show m + 1 + i = m + (i + 1) by omega, show n + 1 + i = n + (i + 1) by omega]]
    simp [List.append_assoc, Nat.add_comm, Nat.add_left_comm]

/-! ### One call -/

theorem op_fakes (op : Op) (s : Session) (k : Fakes) : ∃ env r w k', op.run ⟨s, env, 0, []⟩ = (r, w) ∧
    k.takeAll w.trace = some k' := by
  obtain ⟨t, ht⟩ := Strategic.op op s
  obtain ⟨as, h⟩ := exec_fakes t k 0 []
  obtain ⟨evs, k', h1, h2⟩ := h (fun i => as.getD i ⟨false, [], 0⟩) fun i a hi => by simp [List.getD, hi]
  refine ⟨fun i => as.getD i ⟨false, [], 0⟩, _, _, k', ht _ _ _, ?_⟩
  rw [h1]; exact h2

theorem op_fakes_one {op : Op} {s : Session} {k k1 k2 : Fakes} {env env' : Nat → Answer} {r r' : Res Unit} {w w' : World}
    (h : op.run ⟨s, env, 0, []⟩ = (r, w)) (f : k.takeAll w.trace = some k1)
    (h' : op.run ⟨s, env', 0, []⟩ = (r', w')) (f' : k.takeAll w'.trace = some k2) :
    w.trace = w'.trace ∧ r = r' ∧ w.s = w'.s ∧ k1 = k2 := by
  obtain ⟨t, ht⟩ := Strategic.op op s
  rw [ht] at h h'
  have e1 : (t.exec env 0 []).2.trace = [] ++ w.trace := by rw [h]; rfl
  have e2 : (t.exec env' 0 []).2.trace = [] ++ w'.trace := by rw [h']; rfl
  obtain ⟨a, b, c⟩ := exec_fakes_one t k k1 k2 env env' 0 0 [] [] _ _ e1 f e2 f'
  rw [h, h'] at b c
  refine ⟨a, b, c, ?_⟩
  rw [a, f'] at f
  exact (Option.some.inj f).symm

theorem op_shift {op : Op} {s : Session} {env : Nat → Answer} {r : Res Unit} {w : World} (h : op.run ⟨s, env, 0, []⟩ = (r, w))
    (env' : Nat → Answer) (m : Nat) (trace : List Ev) (same : ∀ i < w.trace.length, env' (m + i) = env i) :
    op.run ⟨s, env', m, trace⟩ = (r, ⟨w.s, env', m + w.trace.length, trace ++ w.trace⟩) := by
  obtain ⟨t, ht⟩ := Strategic.op op s
  rw [ht] at h ⊢
  have e := exec_shift t env env' 0 m [] trace w.trace (by rw [h]; rfl) (by simpa using same)
  rw [h] at e
  exact e

/-! ### A whole test -/

/-- The same calls with the same outcomes, as a history of calls in one environment. -/
theorem Rehearsal.outcomes {s s' : Session} {k k' : Fakes} {lines : List TestLine} {outs : List (Op × Res Unit)} {evs : List Ev}
    (h : Rehearsal s k lines outs evs s' k') : ∃ answers : List Answer, ∀ (env : Nat → Answer) (n : Nat) (trace : List Ev),
      (∀ i a, answers[i]? = some a → env (n + i) = a) → answers.length = evs.length ∧
      Spec.outcomes (outs.map (·.1)) ⟨s, env, n, trace⟩ = (outs.map (·.2), ⟨s', env, n + evs.length, trace ++ evs⟩) := by
  have one : ∀ {w : World} {e : Nat → Answer} {more : List Answer} {env : Nat → Answer} {n : Nat},
      (∀ i a, (((List.range w.trace.length).map e) ++ more)[i]? = some a → env (n + i) = a) →
      (∀ i < w.trace.length, env (n + i) = e i) ∧ ∀ i a, more[i]? = some a → env (n + w.trace.length + i) = a := by
    intro w e more env n he
    refine ⟨fun i hi => he i _ ?_, fun i a hi => ?_⟩
    · rw [List.getElem?_append_left (by simpa using hi)]
      simp [hi]
    · rw [Nat.add_assoc]
      refine he _ a ?_
      rw [List.getElem?_append_right (by simp)]
      simpa using hi
  induction h with
  | nil s k => exact ⟨[], fun env n trace _ => ⟨rfl, by simp [Spec.outcomes]⟩⟩
  | script x b t ih => exact ih
  | clear x t ih => exact ih
  | @call s s' k k1 k' lines outs evs op e r w run fakes defined t ih =>
    obtain ⟨more, ih⟩ := ih
    refine ⟨(List.range w.trace.length).map e ++ more, fun env n trace he => ?_⟩
    obtain ⟨a, b⟩ := one he
    obtain ⟨l, ih⟩ := ih env (n + w.trace.length) (trace ++ w.trace) b
    refine ⟨by simp [l], ?_⟩
    simp only [List.map_cons, Spec.outcomes]
    rw [op_shift run env n trace a]
    cases r with
    | ub u => exact absurd rfl (defined u)
    | _ => simp [ih, Nat.add_assoc]
  | @crash s k k1 lines op e u w run fakes =>
    refine ⟨(List.range w.trace.length).map e ++ [], fun env n trace he => ?_⟩
    obtain ⟨a, -⟩ := one he
    refine ⟨by simp, ?_⟩
    simp only [List.map_cons, List.map_nil, Spec.outcomes]
    rw [op_shift run env n trace a]

/-! ### What the sockets have seen -/

theorem Fakes.sock_set (k : Fakes) (x y : Sock) (t : TestSocket) : (k.set x t).sock y = if x = y then t else k.sock y := by
  cases x <;> cases y <;> rfl

/-- A socket that has recorded these bytes. -/
def Records (t : TestSocket) (acc : Bytes) : Prop :=
  t.txBuffer.length = 4096 ∧ t.recorded = acc.take 4096 ∧ t.txCount = min acc.length 4096

theorem Fakes.take_records {k k' : Fakes} {ev : Ev} (h : k.take ev = some k') (x : Sock) {acc : Bytes}
    (r : Records (k.sock x) acc) : Records (k'.sock x) (acc ++ sentOn x [ev]) := by
  have skip : ∀ {y : Sock} {t : TestSocket}, t.txBuffer = (k.sock y).txBuffer → t.txCount = (k.sock y).txCount →
      Records ((k.set y t).sock x) acc := by
    intro y t h1 h2
    rw [Fakes.sock_set]
    split
    · next e => subst e; simpa [Records, TestSocket.recorded, h1, h2] using r
    · exact r
  cases ev with
  | opened y host port ok =>
    cases ok <;> simp only [Fakes.take] at h
    · cases h
    · cases h; simpa [sentOn] using skip (y := y) (t := (k.sock y).open host port) rfl rfl
  | closed y ok =>
    cases ok <;> simp only [Fakes.take] at h
    · cases h
    · cases h; simpa [sentOn] using skip (y := y) (t := (k.sock y).close) rfl rfl
  | sent y b ok =>
    cases ok <;> simp only [Fakes.take] at h
    · cases h
    · cases h
      rw [Fakes.sock_set]
      by_cases e : y = x
      · subst e
        obtain ⟨g1, g2, g3, -⟩ := send_recorded _ acc b r.1 r.2.1 r.2.2
        simpa [sentOn, Records, List.length_append] using ⟨g1, g2, List.length_append ▸ g3⟩
      · simpa [sentOn, e] using r
  | received y b ok =>
    cases ok <;> simp only [Fakes.take] at h
    · cases h
    · split at h
      · cases h; simpa [sentOn] using skip (y := y) (t := ((k.sock y).receive 4096).2) rfl rfl
      · cases h

theorem sentOn_append (x : Sock) (a b : List Ev) : sentOn x (a ++ b) = sentOn x a ++ sentOn x b := by
  induction a with
  | nil => rfl
  | cons e a ih =>
    cases e with
    | sent y bs ok =>
      cases ok <;> simp only [List.cons_append, sentOn, ih]
      split <;> simp
    | _ => simp only [List.cons_append, sentOn, ih]

theorem receivedOn_append (x : Sock) (a b : List Ev) : receivedOn x (a ++ b) = receivedOn x a ++ receivedOn x b := by
  induction a with
  | nil => rfl
  | cons e a ih =>
    cases e with
    | received y bs ok =>
      cases ok <;> simp only [List.cons_append, receivedOn, ih]
      split <;> simp
    | _ => simp only [List.cons_append, receivedOn, ih]

theorem Fakes.takeAll_records {k k' : Fakes} {evs : List Ev} (h : k.takeAll evs = some k') (x : Sock) {acc : Bytes}
    (r : Records (k.sock x) acc) : Records (k'.sock x) (acc ++ sentOn x evs) := by
  induction evs generalizing k acc with
  | nil => cases h; simpa [sentOn] using r
  | cons e evs ih =>
    simp only [Fakes.takeAll] at h
    rcases t : k.take e with _ | k1
    · rw [t] at h; cases h
    · rw [t] at h
      have := ih h (Fakes.take_records t x r)
      rwa [List.append_assoc, ← sentOn_append] at this

theorem Fakes.take_script {k k' : Fakes} {ev : Ev} (h : k.take ev = some k') (x : Sock) :
    (k.sock x).rx = receivedOn x [ev] ++ (k'.sock x).rx := by
  have skip : ∀ {y : Sock} {t : TestSocket}, t.rx = (k.sock y).rx → (k.sock x).rx = ((k.set y t).sock x).rx := by
    intro y t h1
    rw [Fakes.sock_set]
    split
    · next e => subst e; exact h1.symm
    · rfl
  cases ev with
  | opened y host port ok =>
    cases ok <;> simp only [Fakes.take] at h
    · cases h
    · cases h; exact skip (y := y) rfl
  | closed y ok =>
    cases ok <;> simp only [Fakes.take] at h
    · cases h
    · cases h; exact skip (y := y) rfl
  | sent y b ok =>
    cases ok <;> simp only [Fakes.take] at h
    · cases h
    · cases h; exact skip (y := y) rfl
  | received y b ok =>
    cases ok <;> simp only [Fakes.take] at h
    · cases h
    · split at h
      · next e =>
        cases h
        rw [Fakes.sock_set]
        by_cases e' : y = x
        · subst e'
          subst e
          simp only [receivedOn, if_true, List.append_nil, TestSocket.receive]
          rw [List.take_append_drop]
        · simp [receivedOn, e']
      · cases h

theorem Fakes.takeAll_script {k k' : Fakes} {evs : List Ev} (h : k.takeAll evs = some k') (x : Sock) :
    (k.sock x).rx = receivedOn x evs ++ (k'.sock x).rx := by
  induction evs generalizing k with
  | nil => cases h; rfl
  | cons e evs ih =>
    simp only [Fakes.takeAll] at h
    rcases t : k.take e with _ | k1
    · rw [t] at h; cases h
    · rw [t] at h
      rw [Fakes.take_script t x, ih h, ← List.append_assoc, ← receivedOn_append]
      rfl

theorem Fakes.takeAll_succeed {k k' : Fakes} {evs : List Ev} (h : k.takeAll evs = some k') :
    ∀ ev ∈ evs, succeeded ev = true ∧ ∀ s b ok, ev = .received s b ok → b.length ≤ 4096 := by
  induction evs generalizing k with
  | nil => simp
  | cons e evs ih =>
    simp only [Fakes.takeAll] at h
    rcases t : k.take e with _ | k1
    · rw [t] at h; cases h
    · rw [t] at h
      intro ev hev
      rcases List.mem_cons.1 hev with rfl | hev
      · cases ev with
        | received y b ok =>
          cases ok <;> simp only [Fakes.take] at t
          · cases t
          · split at t
            · next e =>
              refine ⟨rfl, ?_⟩
              rintro _ _ _ h'
              cases h'
              rw [e]; exact receive_le _ _
            · cases t
        | opened y host port ok =>
          cases ok <;> simp only [Fakes.take] at t
          · cases t
          · exact ⟨rfl, by rintro _ _ _ h'; cases h'⟩
        | closed y ok =>
          cases ok <;> simp only [Fakes.take] at t
          · cases t
          · exact ⟨rfl, by rintro _ _ _ h'; cases h'⟩
        | sent y b ok =>
          cases ok <;> simp only [Fakes.take] at t
          · cases t
          · exact ⟨rfl, by rintro _ _ _ h'; cases h'⟩
      · exact ih h ev hev

end Eip
