import Verif.Lemmas.Distinct
import Verif.Props.Connections
import Verif.Props.Effects
import Verif.Model.Random
/-
C102: several sessions of one originator.
-/
namespace Eip
open Spec

/-- A program starting at `time`: a session just constructed, with these default or given numbers, and its sockets. -/
def startAt (vendor : UInt16) (serial : UInt32) (time : Int) (mem : Bytes) (env : Nat → Answer) : World :=
  ⟨Session.construct vendor serial time mem, env, 0, []⟩

/-- The requests of a history, seen from its start: request number `i` at most takes the numbers of attempt `i`. -/
def TriadsFrom (k : Nat) (s : Session) (evs : List Ev) : Prop :=
  ∀ b ∈ openRequests evs, ∃ i, i < k ∧ ∃ sn : UInt16, sn.toNat = (s.nextConnectionSn.toNat + i) % 65536 ∧
    triadOf b = triad sn s.vendorId s.serialNum

theorem triads (ops : List Op) (app : ∀ op ∈ ops, OpAppends op) (w : World) :
    ∃ evs, (runOps ops w).1.trace = w.trace ++ evs ∧ TriadsFrom (attempts ops) w.s evs := by
  induction ops generalizing w with
  | nil => exact ⟨[], by simp [runOps], by intro b hb; cases hb⟩
  | cons op ops ih =>
    have ih := fun w => ih (fun o ho => app o (List.mem_cons_of_mem _ ho)) w
    have step : ∀ w' : World, (∃ evs, w'.trace = (op.run w).2.trace ++ evs ∧ TriadsFrom (attempts ops) (op.run w).2.s evs) →
        ∃ evs, w'.trace = w.trace ++ evs ∧ TriadsFrom (attempts (op :: ops)) w.s evs := by
      intro w' h
      obtain ⟨e2, t2, r2⟩ := h
      have eff := op_effect op w
      by_cases hc : ∃ o t, op = .createConnection o t
      · obtain ⟨o, t, rfl⟩ := hc
        have e : (Op.run (.createConnection o t) w).2 = (Session.createConnection o t w).2 := by
          have e : Op.run (.createConnection o t) w = (Session.createConnection o t).forget w := rfl
          rw [e, forget_eq]
          rcases Session.createConnection o t w with ⟨(_ | _ | _), _⟩ <;> rfl
        rw [e] at t2 r2
        obtain ⟨a, _, c, d, e1, t1, hc⟩ := create_step o t w
        refine ⟨e1 ++ e2, by rw [t2, t1, List.append_assoc], ?_⟩
        intro b hb
        rw [openRequests_append] at hb
        rcases List.mem_append.mp hb with hb | hb
        · have : b = openBody w.s o t := by
            rcases hc with ⟨_, h | h⟩ | ⟨_, _, _, _, _, h⟩
            · rw [h] at hb; cases hb
            · rw [h] at hb; exact List.mem_singleton.mp hb
            · rw [h] at hb; exact List.mem_singleton.mp hb
          subst this
          exact ⟨0, by simp [attempts], w.s.nextConnectionSn, by have := w.s.nextConnectionSn.toNat_lt; omega,
            (openBody_fields w.s o t).2.2.2⟩
        · obtain ⟨i, hi, sn, hs, ht⟩ := r2 b hb
          refine ⟨i + 1, by simp only [attempts]; omega, sn, ?_, by rw [ht, c, d]⟩
          rw [hs, a, UInt16.toNat_add]
          have : (1 : UInt16).toNat = 1 := rfl
          omega
      · have hn : ∀ o t, op ≠ .createConnection o t := fun o t h => hc ⟨o, t, h⟩
        obtain ⟨⟨e1, t1, r1⟩, a, _, _⟩ := other_step op (app op List.mem_cons_self) hn w
        refine ⟨e1 ++ e2, by rw [t2, t1, List.append_assoc], ?_⟩
        intro b hb
        rw [openRequests_append, r1, List.nil_append] at hb
        obtain ⟨i, hi, sn, hs, ht⟩ := r2 b hb
        exact ⟨i, by rw [attempts_other hn]; exact hi, sn, by rw [hs, a], by rw [ht, eff.vendor, eff.serial]⟩
    rw [runOps]
    rcases hr : op.run w with ⟨(x | e | u), w'⟩
    · rw [hr] at step; exact step _ (ih w')
    · rw [hr] at step; exact step _ (ih w')
    · rw [hr] at step; exact step _ ⟨[], by simp, by intro b hb; cases hb⟩

theorem no_attempt (ops : List Op) (app : ∀ op ∈ ops, OpAppends op) (none : attempts ops = 0) (w : World) :
    (∃ evs, (runOps ops w).1.trace = w.trace ++ evs ∧ openRequests evs = []) ∧
    (runOps ops w).1.s.nextConnectionSn = w.s.nextConnectionSn ∧ (runOps ops w).1.s.nextConnectionId = w.s.nextConnectionId := by
  induction ops generalizing w with
  | nil => exact ⟨⟨[], by simp [runOps], rfl⟩, rfl, rfl⟩
  | cons op ops ih =>
    have hn : ∀ o t, op ≠ .createConnection o t := by rintro o t rfl; simp [attempts] at none
    rw [attempts_other hn] at none
    have ih := fun w => ih (fun o ho => app o (List.mem_cons_of_mem _ ho)) none w
    obtain ⟨⟨e1, t1, r1⟩, a, b, _⟩ := other_step op (app op List.mem_cons_self) hn w
    rw [runOps]
    rcases hr : op.run w with ⟨(x | e | u), w'⟩ <;> rw [hr] at t1 a b
    · obtain ⟨⟨e2, t2, r2⟩, c, d⟩ := ih w'
      exact ⟨⟨e1 ++ e2, by rw [t2, t1, List.append_assoc], by rw [openRequests_append, r1, r2]; rfl⟩, c.trans a, d.trans b⟩
    · obtain ⟨⟨e2, t2, r2⟩, c, d⟩ := ih w'
      exact ⟨⟨e1 ++ e2, by rw [t2, t1, List.append_assoc], by rw [openRequests_append, r1, r2]; rfl⟩, c.trans a, d.trans b⟩
    · exact ⟨⟨e1, t1, r1⟩, a, b⟩

theorem first_request (ops : List Op) (app : ∀ op ∈ ops, OpAppends op) (none : attempts ops = 0) (w : World)
    (fresh : w.trace = []) (o t : ConnectionInfo) :
    ∃ b, openRequests (Session.createConnection o t (runOps ops w).1).2.trace = [b] ∧
      oToTOf b = le 4 w.s.nextConnectionId.toNat ∧ tToOOf b = le 4 (w.s.nextConnectionId + 1).toNat ∧
      triadOf b = triad w.s.nextConnectionSn w.s.vendorId w.s.serialNum := by
  obtain ⟨⟨e1, t1, r1⟩, a, b⟩ := no_attempt ops app none w
  obtain ⟨v, s⟩ := c56_identity ops w
  generalize (runOps ops w).1 = u at t1 a b v s ⊢
  have st := create_step o t u
  obtain ⟨_, _, ok, rest, _, _, c47⟩ := c47_forward_open u o t
  obtain ⟨e2, t2, hc⟩ := st.requests
  have ne : openRequests e2 ≠ [] := by
    rw [t2] at c47
    rw [List.append_cancel_left c47, openRequests]
    simp only [List.filterMap_cons, openRequest, manager_body]
    exact List.cons_ne_nil _ _
  have : openRequests e2 = [openBody u.s o t] := by
    rcases hc with ⟨_, h | h⟩ | ⟨_, _, _, _, _, h⟩
    · exact absurd h ne
    · exact h
    · exact h
  refine ⟨openBody u.s o t, ?_, ?_⟩
  · rw [t2, t1, fresh, List.nil_append, openRequests_append, r1, this]; rfl
  · obtain ⟨f1, f2, _, f4⟩ := openBody_fields u.s o t
    rw [f1, f2, f4, a, b, v, s]
    exact ⟨rfl, rfl, rfl⟩

/-- C102 is false: two sessions of the same originator constructed in the same second, whatever happens to them before,
name their first connections by the same three numbers, and propose the same connection ids for them. -/
theorem c102_violated (vendor : UInt16) (serial : UInt32) (time : Int) (mem1 mem2 : Bytes) (env1 env2 : Nat → Answer)
    (ops1 ops2 : List Op) (app1 : ∀ op ∈ ops1, OpAppends op) (app2 : ∀ op ∈ ops2, OpAppends op) (none1 : attempts ops1 = 0)
    (none2 : attempts ops2 = 0) (o1 t1 o2 t2 : ConnectionInfo) :
    ∃ b1 b2, openRequests (Session.createConnection o1 t1 (runOps ops1 (startAt vendor serial time mem1 env1)).1).2.trace = [b1] ∧
      openRequests (Session.createConnection o2 t2 (runOps ops2 (startAt vendor serial time mem2 env2)).1).2.trace = [b2] ∧
      triadOf b1 = triadOf b2 ∧ oToTOf b1 = oToTOf b2 ∧ tToOOf b1 = tToOOf b2 := by
  obtain ⟨b1, h1, x1, y1, z1⟩ := first_request ops1 app1 none1 (startAt vendor serial time mem1 env1) rfl o1 t1
  obtain ⟨b2, h2, x2, y2, z2⟩ := first_request ops2 app2 none2 (startAt vendor serial time mem2 env2) rfl o2 t2
  exact ⟨b1, b2, h1, h2, z1.trans z2.symm, x1.trans x2.symm, y1.trans y2.symm⟩

/-- C102 is false in the strongest way: two such sessions that get the same calls, and whose sockets give the same answers,
cannot be told apart. All their messages are the same. -/
theorem c102_violated_twins (vendor : UInt16) (serial : UInt32) (time : Int) (mem1 mem2 : Bytes) (env : Nat → Answer)
    (ops : List Op) :
    (runOps ops (startAt vendor serial time mem1 env)).1.trace = (runOps ops (startAt vendor serial time mem2 env)).1.trace := by
  obtain ⟨left, h⟩ := c57_histories ops (startAt vendor serial time mem1 env) mem2
  have e : withBuffer (startAt vendor serial time mem1 env) mem2 = startAt vendor serial time mem2 env := rfl
  rw [e] at h
  rw [h]
  rfl

/-- C102 (partial: sessions with different originators, or whose ranges of serial numbers do not overlap). In any two
histories the connections are named differently. Missing: sessions whose ranges overlap, for which it is false. -/
theorem c102_apart_partial (w1 w2 : World) (ops1 ops2 : List Op) (app1 : ∀ op ∈ ops1, OpAppends op)
    (app2 : ∀ op ∈ ops2, OpAppends op)
    (apart : w1.s.vendorId ≠ w2.s.vendorId ∨ w1.s.serialNum ≠ w2.s.serialNum ∨
      (attempts ops1 ≤ (w2.s.nextConnectionSn.toNat + 65536 - w1.s.nextConnectionSn.toNat) % 65536 ∧
       attempts ops2 ≤ (w1.s.nextConnectionSn.toNat + 65536 - w2.s.nextConnectionSn.toNat) % 65536))
    (evs1 evs2 : List Ev) (new1 : (runOps ops1 w1).1.trace = w1.trace ++ evs1)
    (new2 : (runOps ops2 w2).1.trace = w2.trace ++ evs2) :
    ∀ b1 ∈ openRequests evs1, ∀ b2 ∈ openRequests evs2, triadOf b1 ≠ triadOf b2 := by
  intro b1 h1 b2 h2 e
  obtain ⟨e1, t1, r1⟩ := triads ops1 app1 w1
  obtain ⟨e2, t2, r2⟩ := triads ops2 app2 w2
  rw [new1] at t1
  rw [new2] at t2
  obtain rfl := List.append_cancel_left t1
  obtain rfl := List.append_cancel_left t2
  obtain ⟨i, hi, s1, hs1, ht1⟩ := r1 b1 h1
  obtain ⟨j, hj, s2, hs2, ht2⟩ := r2 b2 h2
  rw [ht1, ht2, triad, triad] at e
  obtain ⟨e, e'⟩ := List.append_inj e (by simp)
  obtain ⟨e, e''⟩ := List.append_inj e (by simp)
  have e := le2_inj e
  rcases apart with h | h | ⟨h, h'⟩
  · exact h (le2_inj e'')
  · exact h (le4_inj e')
  · subst e
    have := w1.s.nextConnectionSn.toNat_lt
    have := w2.s.nextConnectionSn.toNat_lt
    omega

end Eip
