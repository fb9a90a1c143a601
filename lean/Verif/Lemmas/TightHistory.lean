import Verif.Lemmas.Tight
import Verif.Lemmas.Distinct
import Verif.Lemmas.Effects
/-
Helpers for C137: histories in which calls run out of memory.
-/
namespace Eip
open Spec

/-- One call: all of it, or the first part. -/
theorem Op.stepT (op : Op) (x : TightWorld) :
    (op.runT x).2.w = (op.run x.w).2 ∨ CutShort op.run x.w (op.runT x).2.w := by
  obtain ⟨_, ⟨r, _, h⟩ | ⟨_, _, h | h⟩⟩ := DoesMost.run op x
  · exact .inl (by rw [h])
  · exact .inr h
  · exact .inl (by rw [h])

theorem runOpsT_induct {R : World → World → Prop} {P : Op → Prop} (refl : ∀ w, R w w)
    (trans : ∀ a b c, R a b → R b c → R a c) (step : ∀ op x, P op → R x.w (op.runT x).2.w) (ops : List Op)
    (hp : ∀ op ∈ ops, P op) (x : TightWorld) : R x.w (runOpsT ops x).1.w := by
  induction ops generalizing x with
  | nil => exact refl x.w
  | cons op ops ih =>
    have h := step op x (hp op List.mem_cons_self)
    have ih := fun x => ih (fun o ho => hp o (List.mem_cons_of_mem _ ho)) x
    rw [runOpsT]
    rcases hr : op.runT x with ⟨_ | (_ | _ | _), x'⟩ <;> rw [hr] at h
    · exact trans _ _ _ h (ih x')
    · exact trans _ _ _ h (ih x')
    · exact trans _ _ _ h (ih x')
    · exact h

theorem cut_events {α : Type} {p : Prog World α} {w v : World} (h : CutShort p w v) :
    ∃ evs more, v.trace = w.trace ++ evs ∧ (p w).2.trace = w.trace ++ (evs ++ more) := by
  obtain ⟨⟨evs, h1⟩, ⟨more, h2⟩, _⟩ := h
  exact ⟨evs, more, h1.symm, by rw [← h2, ← h1, List.append_assoc]⟩

theorem other_stepT (op : Op) (app : OpAppends op) (hn : ∀ o t, op ≠ .createConnection o t) (x : TightWorld) :
    OtherStep x.w (op.runT x).2.w := by
  have full := other_step op app hn x.w
  rcases Op.stepT op x with h | h
  · rw [h]; exact full
  · obtain ⟨evs, more, t1, t2⟩ := cut_events h
    obtain ⟨evs', t3, r⟩ := full.requests
    have e : evs' = evs ++ more := List.append_cancel_left (t3.symm.trans t2)
    rw [e, openRequests_append] at r
    have f := FrugalT.run op hn x
    exact ⟨⟨evs, t1, (List.append_eq_nil_iff.mp r).1⟩, f.1, f.2.1, by rw [h.2.2.2]; exact List.Sublist.refl _⟩

theorem create_world (o t : ConnectionInfo) (w : World) :
    (Op.run (.createConnection o t) w).2 = (Session.createConnection o t w).2 := by
  have e : Op.run (.createConnection o t) w = (Session.createConnection o t).forget w := rfl
  rw [e, forget_eq]
  rcases Session.createConnection o t w with ⟨(_ | _ | _), _⟩ <;> rfl

theorem create_stepT (o t : ConnectionInfo) (x : TightWorld) :
    ((Op.createConnection o t).runT x).2.w = x.w ∨ CreateStep o t x.w ((Op.createConnection o t).runT x).2.w := by
  rcases createT_numbers o t x with ⟨_, h⟩ | ⟨h1, h2, h3, h4⟩
  · exact .inl h
  · right
    have full := create_step o t x.w
    rw [← create_world] at full
    rcases Op.stepT (.createConnection o t) x with h | h
    · rw [h]; exact full
    · obtain ⟨evs, more, t1, t2⟩ := cut_events h
      obtain ⟨evs', t3, r⟩ := full.requests
      have e : evs' = evs ++ more := List.append_cancel_left (t3.symm.trans t2)
      have req : openRequests evs' = [] ∨ openRequests evs' = [openBody x.w.s o t] := by
        rcases r with ⟨_, r⟩ | ⟨_, _, _, _, _, r⟩
        · exact r
        · exact .inr r
      refine ⟨h1, h2, h3, h4, evs, t1, .inl ⟨h.2.2.2, ?_⟩⟩
      rw [e, openRequests_append] at req
      rcases req with r | r
      · exact .inl (List.append_eq_nil_iff.mp r).1
      · rcases List.append_eq_singleton_iff.mp r with ⟨r, _⟩ | ⟨r, _⟩
        · exact .inl r
        · exact .inr r

theorem idPairs_prefix (k k' : Nat) (id : UInt32) : (idPairs k id).Sublist (idPairs (k + k') id) := by
  induction k generalizing id with
  | zero => exact List.nil_sublist _
  | succ k ih =>
    rw [Nat.add_right_comm]
    exact (ih _).cons_cons _

/-- An attempt that did nothing. -/
theorem History.skip {o t : ConnectionInfo} {ops : List Op} {w w' : World} (ih : History ops w w') :
    History (.createConnection o t :: ops) w w' := by
  obtain ⟨⟨e, t, r1, r2⟩, d⟩ := ih
  exact ⟨⟨e, t, r1.trans ((serials_prefix _ 1 _).map _), r2.trans ((idPairs_prefix _ 1 _).map _)⟩,
    d.trans ((List.Sublist.refl _).append (serials_prefix _ 1 _))⟩

theorem historyT (ops : List Op) (app : ∀ op ∈ ops, OpAppends op) (x : TightWorld) :
    History ops x.w (runOpsT ops x).1.w := by
  induction ops generalizing x with
  | nil => exact History.stop [] x.w
  | cons op ops ih =>
    have ih := fun x => ih (fun o ho => app o (List.mem_cons_of_mem _ ho)) x
    have step : ∀ w', History ops (op.runT x).2.w w' → History (op :: ops) x.w w' := by
      intro w' h
      by_cases hc : ∃ o t, op = .createConnection o t
      · obtain ⟨o, t, rfl⟩ := hc
        rcases create_stepT o t x with e | s
        · rw [e] at h
          exact History.skip h
        · exact History.create s h
      · have hn : ∀ o t, op ≠ .createConnection o t := fun o t h => hc ⟨o, t, h⟩
        exact History.other hn (other_stepT op (app op List.mem_cons_self) hn x) h
    rw [runOpsT]
    rcases hr : op.runT x with ⟨_ | (_ | _ | _), x'⟩ <;> rw [hr] at step
    · exact step _ (ih x')
    · exact step _ (ih x')
    · exact step _ (ih x')
    · exact step _ (History.stop ops x'.w)

end Eip
