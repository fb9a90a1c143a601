import Verif.Spec.Log
import Verif.Lemmas.Rpc
/-
Composition rules for programs with a log.
-/
namespace Eip
open Spec

/-- `p` does what `q` does, and adds messages to the log that are related to the run of `q` by `R`. -/
def Logs {α : Type} (p : Prog LogWorld α) (q : Prog World α) (R : World → Res α × World → List LogMsg → Prop) : Prop :=
  ∀ w l, ∃ new, p ⟨w, l⟩ = ((q w).1, ⟨(q w).2, l ++ new⟩) ∧ R w (q w) new

namespace Logs
variable {α β : Type}

theorem mono {p : Prog LogWorld α} {q : Prog World α} {R S : World → Res α × World → List LogMsg → Prop}
    (h : Logs p q R) (hs : ∀ w new, R w (q w) new → S w (q w) new) : Logs p q S := by
  intro w l
  obtain ⟨new, e, r⟩ := h w l
  exact ⟨new, e, hs w new r⟩

theorem say (m : LogMsg) : Logs (Eip.say m) (pure ()) (fun _ _ new => new = [m]) := fun _ _ => ⟨[m], rfl, rfl⟩

theorem quiet (q : Prog World α) : Logs (Eip.quiet q) q (fun _ _ new => new = []) := by
  intro w l
  refine ⟨[], ?_, rfl⟩
  rw [List.append_nil]
  rfl

theorem pure (a : α) : Logs (Pure.pure a) (Pure.pure a) (fun _ _ new => new = []) := by
  intro w l
  refine ⟨[], ?_, rfl⟩
  rw [List.append_nil]
  rfl

theorem raise (e : Exn) : Logs (Prog.raise e : Prog LogWorld α) (Prog.raise e) (fun _ _ new => new = []) := by
  intro w l
  refine ⟨[], ?_, rfl⟩
  rw [List.append_nil]
  rfl

theorem undef (u : UB) : Logs (Prog.undef u : Prog LogWorld α) (Prog.undef u) (fun _ _ new => new = []) := by
  intro w l
  refine ⟨[], ?_, rfl⟩
  rw [List.append_nil]
  rfl

theorem onLocal {δ : Type} (init : δ) (p : Prog δ Unit) :
    Logs (Session.onLocal init p) (Session.onLocal init p) (fun _ _ new => new = []) := by
  intro w l
  refine ⟨[], ?_, rfl⟩
  rw [List.append_nil]
  simp only [Session.onLocal]
  rcases p init with ⟨(x | e | u), d⟩ <;> rfl

/-- Sequencing. -/
theorem bind {p : Prog LogWorld α} {q : Prog World α} {f : α → Prog LogWorld β} {g : α → Prog World β}
    {R : World → Res α × World → List LogMsg → Prop} {S : α → World → Res β × World → List LogMsg → Prop}
    (hp : Logs p q R) (hf : ∀ a, Logs (f a) (g a) (S a)) :
    Logs (p >>= f) (q >>= g) (fun w r new =>
      (∃ a w' n1 n2, q w = (.ok a, w') ∧ r = g a w' ∧ new = n1 ++ n2 ∧ R w (.ok a, w') n1 ∧ S a w' (g a w') n2) ∨
      (∃ e w', q w = (.throw e, w') ∧ r = (.throw e, w') ∧ R w (.throw e, w') new) ∨
      (∃ u w', q w = (.ub u, w') ∧ r = (.ub u, w') ∧ R w (.ub u, w') new)) := by
  intro w l
  obtain ⟨n1, e1, r1⟩ := hp w l
  rcases hq : q w with ⟨(a | e | u), w'⟩
  · rw [hq] at e1 r1
    obtain ⟨n2, e2, r2⟩ := hf a w' (l ++ n1)
    refine ⟨n1 ++ n2, ?_, Or.inl ⟨a, w', n1, n2, hq, Prog.bind_ok hq, rfl, r1, r2⟩⟩
    rw [Prog.bind_ok e1, e2, Prog.bind_ok hq, List.append_assoc]
  · rw [hq] at e1 r1
    refine ⟨n1, ?_, Or.inr (Or.inl ⟨e, w', hq, Prog.bind_throw hq, r1⟩)⟩
    rw [Prog.bind_throw e1, Prog.bind_throw hq]
  · rw [hq] at e1 r1
    refine ⟨n1, ?_, Or.inr (Or.inr ⟨u, w', hq, Prog.bind_ub hq, r1⟩)⟩
    rw [Prog.bind_ub e1, Prog.bind_ub hq]

/-- A message first. -/
theorem say_bind (m : LogMsg) {p : Prog LogWorld β} {q : Prog World β} {R : World → Res β × World → List LogMsg → Prop}
    (hp : Logs p q R) :
    Logs (Eip.say m >>= fun _ => p) q (fun w r new => ∃ n, new = m :: n ∧ R w r n) := by
  intro w l
  obtain ⟨n, e, r⟩ := hp w (l ++ [m])
  refine ⟨m :: n, ?_, n, rfl, r⟩
  have h : Eip.say m ⟨w, l⟩ = (.ok (), ⟨w, l ++ [m]⟩) := rfl
  rw [Prog.bind_ok h, e, List.append_assoc]
  rfl

/-- A possible message first. -/
theorem sayIf_bind (c : Prop) [Decidable c] (m : LogMsg) {p : Prog LogWorld β} {q : Prog World β}
    {R : World → Res β × World → List LogMsg → Prop} (hp : Logs p q R) :
    Logs (Eip.sayIf c m >>= fun _ => p) q (fun w r new => ∃ n, new = when c m ++ n ∧ R w r n) := by
  by_cases h : c
  · simp only [Eip.sayIf, if_pos h, when]
    exact say_bind m hp
  · simp only [Eip.sayIf, if_neg h, when]
    exact hp.mono (fun w new r => ⟨new, rfl, r⟩)

theorem sayIf (c : Prop) [Decidable c] (m : LogMsg) :
    Logs (Eip.sayIf c m) (Pure.pure ()) (fun _ _ new => new = when c m) := by
  by_cases h : c
  · simp only [Eip.sayIf, if_pos h, when]
    exact say m
  · simp only [Eip.sayIf, if_neg h, when]
    exact pure ()

/-- Reading the session first. -/
theorem get_bind {f : LogWorld → Prog LogWorld β} {g : World → Prog World β}
    {R : World → Res β × World → List LogMsg → Prop}
    (hf : ∀ w l, ∃ new, f ⟨w, l⟩ ⟨w, l⟩ = ((g w w).1, ⟨(g w w).2, l ++ new⟩) ∧ R w (g w w) new) :
    Logs (Prog.get >>= f) (Prog.get >>= g) R := fun w l => hf w l

theorem ite {c : Prop} [Decidable c] {p p' : Prog LogWorld α} {q q' : Prog World α}
    {R : World → Res α × World → List LogMsg → Prop} (h : c → Logs p q R) (h' : ¬ c → Logs p' q' R) :
    Logs (if c then p else p') (if c then q else q') R := by
  by_cases hc : c
  · rw [if_pos hc, if_pos hc]; exact h hc
  · rw [if_neg hc, if_neg hc]; exact h' hc

/-- `try` with handlers for `length_error` and `logic_error`. -/
theorem catchLengthLogic {p : Prog LogWorld α} {q : Prog World α} {a b : Exn → Prog LogWorld α} {a' b' : Prog World α}
    {R : World → Res α × World → List LogMsg → Prop} {A B : World → Res α × World → List LogMsg → Prop}
    (hp : Logs p q R) (ha : ∀ e, Logs (a e) a' A) (hb : ∀ e, Logs (b e) b' B) :
    Logs (Session.Logged.catchLengthLogic p a b) (Session.catchLengthLogic q a' b') (fun w r new =>
      (∃ x w', q w = (.ok x, w') ∧ r = (.ok x, w') ∧ R w (.ok x, w') new) ∨
      (∃ u w', q w = (.ub u, w') ∧ r = (.ub u, w') ∧ R w (.ub u, w') new) ∨
      (∃ e w' n1 n2, q w = (.throw e, w') ∧ new = n1 ++ n2 ∧ R w (.throw e, w') n1 ∧
        ((e.kind.isA .lengthError = true ∧ r = a' w' ∧ A w' (a' w') n2) ∨
         (e.kind.isA .lengthError = false ∧ e.kind.isA .logicError = true ∧ r = b' w' ∧ B w' (b' w') n2) ∨
         (e.kind.isA .lengthError = false ∧ e.kind.isA .logicError = false ∧ r = (.throw e, w') ∧ n2 = [])))) := by
  intro w l
  obtain ⟨n1, e1, r1⟩ := hp w l
  rcases hq : q w with ⟨(x | e | u), w'⟩
  · rw [hq] at e1 r1
    refine ⟨n1, ?_, Or.inl ⟨x, w', hq, ?_, r1⟩⟩
    · simp only [Session.Logged.catchLengthLogic, Session.catchLengthLogic, Prog.tryCatch, e1, hq]
    · simp only [Session.catchLengthLogic, Prog.tryCatch, hq]
  · rw [hq] at e1 r1
    by_cases h1 : e.kind.isA .lengthError = true
    · obtain ⟨n2, e2, r2⟩ := ha e w' (l ++ n1)
      refine ⟨n1 ++ n2, ?_, Or.inr (Or.inr ⟨e, w', n1, n2, hq, rfl, r1, Or.inl ⟨h1, ?_, r2⟩⟩)⟩
      · simp only [Session.Logged.catchLengthLogic, Session.catchLengthLogic, Prog.tryCatch, e1, hq, h1, if_true, e2,
          List.append_assoc]
      · simp only [Session.catchLengthLogic, Prog.tryCatch, hq, h1, if_true]
    · rw [Bool.not_eq_true] at h1
      by_cases h2 : e.kind.isA .logicError = true
      · obtain ⟨n2, e2, r2⟩ := hb e w' (l ++ n1)
        refine ⟨n1 ++ n2, ?_, Or.inr (Or.inr ⟨e, w', n1, n2, hq, rfl, r1, Or.inr (Or.inl ⟨h1, h2, ?_, r2⟩)⟩)⟩
        · simp only [Session.Logged.catchLengthLogic, Session.catchLengthLogic, Prog.tryCatch, e1, hq, h1, h2, if_true,
            e2, List.append_assoc, Bool.false_eq_true, if_false]
        · simp only [Session.catchLengthLogic, Prog.tryCatch, hq, h1, h2, if_true, Bool.false_eq_true, if_false]
      · rw [Bool.not_eq_true] at h2
        refine ⟨n1, ?_, Or.inr (Or.inr ⟨e, w', n1, [], hq, (List.append_nil _).symm, r1,
          Or.inr (Or.inr ⟨h1, h2, ?_, rfl⟩)⟩)⟩
        · simp only [Session.Logged.catchLengthLogic, Session.catchLengthLogic, Prog.tryCatch, e1, hq, h1, h2,
            Bool.false_eq_true, if_false, Prog.raise]
        · simp only [Session.catchLengthLogic, Prog.tryCatch, hq, h1, h2, Bool.false_eq_true, if_false, Prog.raise]
  · rw [hq] at e1 r1
    refine ⟨n1, ?_, Or.inr (Or.inl ⟨u, w', hq, ?_, r1⟩)⟩
    · simp only [Session.Logged.catchLengthLogic, Session.catchLengthLogic, Prog.tryCatch, e1, hq]
    · simp only [Session.catchLengthLogic, Prog.tryCatch, hq]

end Logs
end Eip
