import Verif.Spec.Backlog
import Verif.Lemmas.Effects
import Verif.Lemmas.Open
/-
Helpers for C139: answers left unread.
-/
namespace Eip
open Spec

/-- What a command does to the control connection. -/
inductive Trip : List Ev → Prop
  | none : Trip []
  | unsent (b : Bytes) : Trip [.sent .tcp b false]
  | both (b d : Bytes) (ok : Bool) : Trip [.sent .tcp b true, .received .tcp d ok]

theorem RRCases.trip {w : World} {bs : Bytes} {r : Res RRDataResponse × World} (h : RRCases w bs r) :
    ∃ evs, r.2.trace = w.trace ++ evs ∧ Trip evs := by
  cases h with
  | sendFails => exact ⟨_, rfl, .unsent bs⟩
  | receiveFails => exact ⟨_, List.append_assoc .., .both bs _ false⟩
  | replied => exact ⟨_, rfl, .both bs _ true⟩

theorem command_trip (op : Op) (hc : IsCommand op) (w : World) :
    ∃ evs, (op.run w).2.trace = w.trace ++ evs ∧ Trip evs := by
  have key : ∀ {w1 w' : World} {bs : Bytes} {r : Res RRDataResponse}, (w1 = w ∨ w1 = w.bumped) → RRCases w1 bs (r, w') →
      ∃ evs, w'.trace = w.trace ++ evs ∧ Trip evs := by
    intro w1 w' bs r h1 rr
    have := rr.trip
    rcases h1 with rfl | rfl <;> exact this
  cases command_run op hc w with
  | unsent r hr h => rw [h]; exact ⟨[], (List.append_nil _).symm, .none⟩
  | thrown w1 bs e w' h1 rr h => rw [h]; exact key h1 rr
  | crashed w1 bs u w' h1 rr h => rw [h]; exact key h1 rr
  | answered w1 bs resp r w' w'' h1 rr h hs =>
    rw [h]
    obtain ⟨evs, t, s⟩ := key h1 rr
    exact ⟨evs, (SameButConnections.eqs hs).1.trans t, s⟩

/-- Trips one after the other. -/
inductive Trips : List Ev → Prop
  | nil : Trips []
  | cons {evs more : List Ev} (t : Trip evs) (ts : Trips more) : Trips (evs ++ more)

theorem commands_trips (ops : List Op) (hc : ∀ op ∈ ops, IsCommand op) (w : World) :
    ∃ evs, (runOps ops w).1.trace = w.trace ++ evs ∧ Trips evs := by
  induction ops generalizing w with
  | nil => exact ⟨[], (List.append_nil _).symm, .nil⟩
  | cons op ops ih =>
    obtain ⟨evs, t, s⟩ := command_trip op (hc op List.mem_cons_self) w
    have ih := fun w => ih (fun o ho => hc o (List.mem_cons_of_mem _ ho)) w
    rw [runOps]
    rcases hr : op.run w with ⟨_ | _ | _, w'⟩ <;> rw [hr] at t
    · obtain ⟨more, t', s'⟩ := ih w'
      exact ⟨evs ++ more, by rw [t', t, List.append_assoc], .cons s s'⟩
    · obtain ⟨more, t', s'⟩ := ih w'
      exact ⟨evs ++ more, by rw [t', t, List.append_assoc], .cons s s'⟩
    · exact ⟨evs ++ [], by rw [List.append_nil]; exact t, .cons s .nil⟩

/-- What a history of commands does to the answers on their way. -/
theorem Trips.backlog {device : Bytes → Bytes} {evs : List Ev} (h : Trips evs) :
    ∀ {q q' : List Bytes}, backlog device q evs = some q' →
      answersIn evs ++ q' = q ++ (requestsIn evs).map device ∧ q.length ≤ q'.length := by
  induction h with
  | nil =>
    intro q q' h
    cases h
    exact ⟨(List.append_nil _).symm, Nat.le_refl _⟩
  | @cons _ more t ts ih =>
    intro q q' h
    cases t with
    | none => exact ih h
    | unsent b => exact ih h
    | both b d ok =>
      cases ok with
      | false =>
        have h' : Spec.backlog device (q ++ [device b]) more = some q' := by
          rw [← h]
          cases q <;> rfl
        obtain ⟨e, l⟩ := ih h'
        refine ⟨e.trans (List.append_assoc ..), ?_⟩
        rw [List.length_append] at l
        exact Nat.le_trans (Nat.le_add_right _ _) l
      | true =>
        have split : ∃ r rest, q ++ [device b] = r :: rest := by
          cases q with
          | nil => exact ⟨_, _, rfl⟩
          | cons r rest => exact ⟨r, rest ++ [device b], rfl⟩
        obtain ⟨r, rest, hq⟩ := split
        have h1 : Spec.backlog device (q ++ [device b]) (.received .tcp d true :: more) = some q' := by
          rw [← h]
          cases q <;> rfl
        rw [hq] at h1
        have h2 : (if d = r then Spec.backlog device rest more else none) = some q' := h1
        by_cases hd : d = r
        · rw [if_pos hd] at h2
          obtain ⟨e, l⟩ := ih h2
          constructor
          · show d :: (answersIn more ++ q') = q ++ device b :: (requestsIn more).map device
            rw [e, hd, ← List.cons_append, ← hq, List.append_assoc]
            rfl
          · have hl := congrArg List.length hq
            rw [List.length_append] at hl
            simp only [List.length_cons, List.length_nil] at hl
            omega
        · rw [if_neg hd] at h2
          exact nomatch h2

/-- Without failing receives every answer is taken. -/
theorem Trips.served {device : Bytes → Bytes} {evs : List Ev} (h : Trips evs) (n : NoLostReceive evs) :
    ∀ {q q' : List Bytes}, Spec.backlog device q evs = some q' → q'.length = q.length := by
  induction h with
  | nil =>
    intro q q' h
    cases h
    rfl
  | @cons _ more t ts ih =>
    intro q q' h
    have ih := @ih (fun s data hm => n s data (List.mem_append_right _ hm))
    cases t with
    | none => exact ih h
    | unsent b => exact ih h
    | both b d ok =>
      cases ok with
      | false => exact absurd (List.mem_cons_of_mem _ List.mem_cons_self) (n .tcp d)
      | true =>
        have split : ∃ r rest, q ++ [device b] = r :: rest := by
          cases q with
          | nil => exact ⟨_, _, rfl⟩
          | cons r rest => exact ⟨r, rest ++ [device b], rfl⟩
        obtain ⟨r, rest, hq⟩ := split
        have h1 : Spec.backlog device (q ++ [device b]) (.received .tcp d true :: more) = some q' := by
          rw [← h]
          cases q <;> rfl
        rw [hq] at h1
        have h2 : (if d = r then Spec.backlog device rest more else none) = some q' := h1
        by_cases hd : d = r
        · rw [if_pos hd] at h2
          have e := ih h2
          have hl := congrArg List.length hq
          rw [List.length_append] at hl
          simp only [List.length_cons, List.length_nil] at hl
          omega
        · rw [if_neg hd] at h2
          exact nomatch h2

end Eip
