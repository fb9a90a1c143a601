import Verif.Spec.Hub
import Verif.Props.Lan
/-
C133: scanners that share an io_service do not disturb one another.
-/
namespace Eip
open Spec

private theorem sum_zero {l : List Nat} : l.sum = 0 ↔ ∀ x ∈ l, x = 0 := by
  induction l with
  | nil => simp
  | cons a l ih =>
    rw [List.sum_cons, Nat.add_eq_zero_iff, ih]
    simp

private theorem work_zero (h : Hub) : h.work = 0 ↔ ∀ j s, Hub.Holds h j s → s.scanner.receives = 0 := by
  unfold Hub.work
  rw [sum_zero]
  constructor
  · intro hz j s hs
    have hm : some s ∈ h.scanners := List.mem_of_getElem? hs
    exact hz _ (List.mem_map.2 ⟨_, hm, rfl⟩)
  · intro hz x hx
    obtain ⟨o, ho, rfl⟩ := List.mem_map.1 hx
    cases o with
    | none => rfl
    | some s =>
      obtain ⟨j, hj⟩ := List.mem_iff_getElem?.1 ho
      exact hz j s hj

private theorem idle (env : ScanEnv) (mail : List Mail) (s : LanScanner) (hr : s.scanner.receives = 0) :
    LanScanner.runService env mail s = (.ok (some mail), s) := by
  cases mail <;> simp [LanScanner.runService, hr]

private theorem mailFor_self (i : Nat) (m : Mail) (rest : List (Nat × Mail)) :
    mailFor i ((i, m) :: rest) = m :: mailFor i rest := by
  simp [mailFor]

private theorem mailFor_other {i j : Nat} (ne : i ≠ j) (m : Mail) (rest : List (Nat × Mail)) :
    mailFor j ((i, m) :: rest) = mailFor j rest := by
  simp [mailFor, ne]

/-- What `listen` does to each scanner. -/
private theorem listen_each (env : ScanEnv) (mail : List (Nat × Mail)) (h : Hub) (r : Option (List (Nat × Mail)))
    (ok : (Hub.listen env mail h).1 = .ok r) :
    (∀ j s, Hub.Holds h j s →
      Hub.Holds (Hub.listen env mail h).2 j (LanScanner.runService env (mailFor j mail) s).2) ∧
    (∀ j : Nat, h.scanners[j]? = some none → (Hub.listen env mail h).2.scanners[j]? = some none) ∧
    (Hub.listen env mail h).2.scanners.length = h.scanners.length ∧
    (Hub.listen env mail h).2.cancelled = h.cancelled ∧ (Hub.listen env mail h).2.errors = h.errors ∧
    (r = none ↔ (Hub.listen env mail h).2.work ≠ 0) ∧
    (Hub.listen env mail h).2.stopped = (h.stopped || r.isSome) := by
  induction mail generalizing h with
  | nil =>
    unfold Hub.listen at ok ⊢
    by_cases hw : h.work = 0
    · simp only [if_pos hw] at ok ⊢
      cases ok
      refine ⟨?_, fun _ h => h, by first | rfl | trivial, by first | rfl | trivial, by first | rfl | trivial, ?_, by simp⟩
      · intro j s hs
        rw [idle env _ s ((work_zero h).1 hw j s hs)]
        exact hs
      · exact ⟨fun h => (nomatch h), fun hn => absurd hw hn⟩
    · simp only [if_neg hw] at ok ⊢
      cases ok
      refine ⟨?_, fun _ h => h, by first | rfl | trivial, by first | rfl | trivial, by first | rfl | trivial, ⟨fun _ => hw, fun _ => rfl⟩, by simp⟩
      intro j s hs
      have : (LanScanner.runService env (mailFor j []) s).2 = s := by
        show (LanScanner.runService env [] s).2 = s
        unfold LanScanner.runService
        split <;> rfl
      rw [this]
      exact hs
  | cons p rest ih =>
    obtain ⟨i, m⟩ := p
    by_cases hw : h.work = 0
    · unfold Hub.listen at ok ⊢
      simp only [if_pos hw] at ok ⊢
      cases ok
      refine ⟨?_, fun _ h => h, by first | rfl | trivial, by first | rfl | trivial, by first | rfl | trivial, ?_, by simp⟩
      · intro j s hs
        rw [idle env _ s ((work_zero h).1 hw j s hs)]
        exact hs
      · exact ⟨fun h => (nomatch h), fun hn => absurd hw hn⟩
    · cases hi : h.scanners[i]? with
      | none =>
        have e : Hub.listen env ((i, m) :: rest) h = Hub.listen env rest h := by
          rw [Hub.listen]
          simp only [if_neg hw, hi]
        rw [e] at ok ⊢
        obtain ⟨h1, h2⟩ := ih h ok
        refine ⟨fun j s hs => ?_, h2⟩
        have ne : i ≠ j := fun e => by rw [e] at hi; rw [Hub.Holds, hi] at hs; cases hs
        rw [mailFor_other ne]
        exact h1 j s hs
      | some o =>
        cases o with
        | none =>
          have e : Hub.listen env ((i, m) :: rest) h = Hub.listen env rest h := by
            rw [Hub.listen]
            simp only [if_neg hw, hi]
          rw [e] at ok ⊢
          obtain ⟨h1, h2⟩ := ih h ok
          refine ⟨fun j s hs => ?_, h2⟩
          have ne : i ≠ j := fun e => by rw [e] at hi; rw [Hub.Holds, hi] at hs; cases hs
          rw [mailFor_other ne]
          exact h1 j s hs
        | some si =>
          cases hr : si.scanner.receives with
          | zero =>
            have e : Hub.listen env ((i, m) :: rest) h = Hub.listen env rest h := by
              rw [Hub.listen]
              simp only [if_neg hw, hi, hr]
            rw [e] at ok ⊢
            obtain ⟨h1, h2⟩ := ih h ok
            refine ⟨fun j s hs => ?_, h2⟩
            by_cases ne : i = j
            · subst ne
              rw [Hub.Holds, hi] at hs
              cases hs
              have := h1 i si hi
              rw [idle env _ si hr] at this ⊢
              exact this
            · rw [mailFor_other ne]
              exact h1 j s hs
          | succ n =>
            cases hb : si.bound with
            | false =>
              have e : Hub.listen env ((i, m) :: rest) h = Hub.listen env rest h := by
                rw [Hub.listen]
                simp only [if_neg hw, hi, hr, hb, Bool.not_false, if_true]
              rw [e] at ok ⊢
              obtain ⟨h1, h2⟩ := ih h ok
              refine ⟨fun j s hs => ?_, h2⟩
              by_cases ne : i = j
              · subst ne
                rw [Hub.Holds, hi] at hs
                cases hs
                have e' : LanScanner.runService env (m :: mailFor i rest) si =
                    LanScanner.runService env (mailFor i rest) si := by
                  rw [LanScanner.runService]
                  simp only [hr, hb, Bool.not_false, if_true]
                rw [mailFor_self, e']
                exact h1 i si hi
              · rw [mailFor_other ne]
                exact h1 j s hs
            | true =>
              have e : Hub.listen env ((i, m) :: rest) h =
                  match Scanner.handleListIdentityResponse env (.datagram m.data) { si.scanner with receives := n } with
                  | (.ok (), c) => Hub.listen env rest { h with scanners := h.scanners.set i (some { si with scanner := c }) }
                  | (.throw e, c) => (.throw e, { h with scanners := h.scanners.set i (some { si with scanner := c }) })
                  | (.ub u, c) => (.ub u, { h with scanners := h.scanners.set i (some { si with scanner := c }) }) := by
                obtain ⟨⟨_, _, _⟩, _, _, _⟩ := si
                simp only at hr hb
                subst hr hb
                rw [Hub.listen]
                simp only [if_neg hw, hi, Bool.not_true, Bool.false_eq_true, if_false]
                rfl
              have e' : ∀ later, LanScanner.runService env (m :: later) si =
                  match Scanner.handleListIdentityResponse env (.datagram m.data) { si.scanner with receives := n } with
                  | (.ok (), c) => LanScanner.runService env later { si with scanner := c }
                  | (.throw e, c) => (.throw e, { si with scanner := c })
                  | (.ub u, c) => (.ub u, { si with scanner := c }) := by
                intro later
                obtain ⟨⟨_, _, _⟩, _, _, _⟩ := si
                simp only at hr hb
                subst hr hb
                rfl
              cases hq : Scanner.handleListIdentityResponse env (.datagram m.data) { si.scanner with receives := n } with
              | mk q c =>
                rw [hq] at e
                cases q with
                | throw x => rw [e] at ok; cases ok
                | ub x => rw [e] at ok; cases ok
                | ok u =>
                  dsimp only at e
                  rw [e] at ok ⊢
                  have lt : i < h.scanners.length := (List.getElem?_eq_some_iff.mp hi).1
                  obtain ⟨h1, h2, h3, h4⟩ := ih _ ok
                  refine ⟨fun j s hs => ?_, fun j hj => ?_, ?_, h4⟩
                  · by_cases ne : i = j
                    · subst ne
                      rw [Hub.Holds, hi] at hs
                      cases hs
                      have := h1 i { si with scanner := c } (by rw [Hub.Holds]; exact List.getElem?_set_self lt)
                      rw [mailFor_self, e', hq]
                      exact this
                    · rw [mailFor_other ne]
                      exact h1 j s (by rw [Hub.Holds]; dsimp only; rw [List.getElem?_set_ne ne]; exact hs)
                  · have ne : i ≠ j := fun e => by rw [e] at hi; rw [hi] at hj; cases hj
                    exact h2 j (by dsimp only; rw [List.getElem?_set_ne ne]; exact hj)
                  · rw [h3]
                    simp

/-- A run that returns has sent the request and run the service. -/
private theorem run_ok (lan : Lan) (env : ScanEnv) (i : Nat) (mail : List (Nat × Mail)) (h : Hub) (s : LanScanner)
    (at' : Hub.Holds h i s) (r : Option (List (Nat × Mail))) (ok : (Hub.run lan env i mail h).1 = .ok r) :
    (LanScanner.sendListIdentityRequest lan env.junk s).1 = .ok () ∧
    Hub.run lan env i mail h = Hub.runService env mail
      { h with scanners := h.scanners.set i (some (LanScanner.sendListIdentityRequest lan env.junk s).2) } := by
  rw [Hub.Holds] at at'
  unfold Hub.run at ok ⊢
  rw [at'] at ok ⊢
  dsimp only at ok ⊢
  cases hs : LanScanner.sendListIdentityRequest lan env.junk s with
  | mk q s' =>
    rw [hs] at ok
    cases q with
    | ok u => exact ⟨rfl, rfl⟩
    | throw e => cases ok
    | ub u => cases ok

/-- Sending leaves the scanner's receive operation and its log alone. -/
private theorem send_keeps (lan : Lan) (junk : UInt8) (s : LanScanner) :
    (LanScanner.sendListIdentityRequest lan junk s).2.scanner = s.scanner := by
  unfold LanScanner.sendListIdentityRequest
  split
  · rfl
  · split
    · unfold LanScanner.sendTo
      split
      · rfl
      · split <;> rfl
    · rfl
    · rfl
    · rfl

/-- C133, the reports: on a service that no run has brought to its end yet, a run that returns (or waits for more) leaves
every scanner, the one that runs and all others, as it would be had it been alone with its own mail: it has reported the
same devices. Missing: a service that was run to its end (`c133_violated`), and when the run returns (`c133_violated_waits`). -/
theorem c133_reports_partial (lan : Lan) (env : ScanEnv) (i : Nat) (mail : List (Nat × Mail)) (h : Hub)
    (going : h.stopped = false) (r : Option (List (Nat × Mail))) (ok : (Hub.run lan env i mail h).1 = .ok r) :
    (∀ s, Hub.Holds h i s → Hub.Holds (Hub.run lan env i mail h).2 i (LanScanner.run lan env (mailFor i mail) s).2) ∧
    (∀ j s, j ≠ i → Hub.Holds h j s →
      Hub.Holds (Hub.run lan env i mail h).2 j (LanScanner.runService env (mailFor j mail) s).2) ∧
    (∀ j, (∃ s, Hub.Holds (Hub.run lan env i mail h).2 j s) → ∃ s, Hub.Holds h j s) := by
  have ex : ∃ s, Hub.Holds h i s := by
    unfold Hub.run at ok
    split at ok
    · next s hs => exact ⟨s, hs⟩
    · cases ok
  obtain ⟨si, hi⟩ := ex
  obtain ⟨hsend, e⟩ := run_ok lan env i mail h si hi r ok
  have lt : i < h.scanners.length := (List.getElem?_eq_some_iff.mp hi).1
  unfold Hub.runService at e
  simp only [going, Bool.false_eq_true, if_false] at e
  rw [e] at ok ⊢
  obtain ⟨h1, h2, h3, -⟩ := listen_each env mail _ r ok
  refine ⟨?_, ?_, ?_⟩
  · intro s hs
    rw [Hub.Holds] at hs hi
    rw [hi] at hs
    cases hs
    have e' : LanScanner.run lan env (mailFor i mail) si =
        LanScanner.runService env (mailFor i mail) (LanScanner.sendListIdentityRequest lan env.junk si).2 := by
      unfold LanScanner.run
      cases hq : LanScanner.sendListIdentityRequest lan env.junk si with
      | mk q s' =>
        rw [hq] at hsend
        cases hsend
        exact Prog.bind_ok hq
    rw [e']
    exact h1 i _ (by rw [Hub.Holds]; exact List.getElem?_set_self lt)
  · intro j s ne hs
    exact h1 j s (by rw [Hub.Holds]; dsimp only; rw [List.getElem?_set_ne ne.symm]; exact hs)
  · rintro j ⟨s, hs⟩
    by_cases ne : i = j
    · subst ne; exact ⟨si, hi⟩
    · cases hj : h.scanners[j]? with
      | none =>
        have : h.scanners.length ≤ j := List.getElem?_eq_none_iff.mp hj
        rw [Hub.Holds, List.getElem?_eq_none (by rw [h3]; simpa using this)] at hs
        cases hs
      | some o =>
        cases o with
        | some s' => exact ⟨s', hj⟩
        | none =>
          rw [Hub.Holds, h2 j (by dsimp only; rw [List.getElem?_set_ne ne]; exact hj)] at hs
          cases hs

/-- C133, the return: on a service that no run has brought to its end yet, a run comes back if and only if afterwards no scanner
of the service waits for mail, whichever scanner was asked to run; the service is then at its end. The receives of
scanners that were destroyed since the last run are each logged as an error. -/
theorem c133_returns (lan : Lan) (env : ScanEnv) (i : Nat) (mail : List (Nat × Mail)) (h : Hub)
    (going : h.stopped = false) (r : Option (List (Nat × Mail))) (ok : (Hub.run lan env i mail h).1 = .ok r) :
    (r ≠ none ↔ ∀ j s, Hub.Holds (Hub.run lan env i mail h).2 j s → s.scanner.receives = 0) ∧
    (r ≠ none ↔ (Hub.run lan env i mail h).2.stopped = true) ∧
    (Hub.run lan env i mail h).2.errors = h.errors + h.cancelled ∧ (Hub.run lan env i mail h).2.cancelled = 0 := by
  have ex : ∃ s, Hub.Holds h i s := by
    unfold Hub.run at ok
    split at ok
    · next s hs => exact ⟨s, hs⟩
    · cases ok
  obtain ⟨si, hi⟩ := ex
  obtain ⟨hsend, e⟩ := run_ok lan env i mail h si hi r ok
  unfold Hub.runService at e
  simp only [going, Bool.false_eq_true, if_false] at e
  rw [e] at ok ⊢
  obtain ⟨-, -, -, h4, h5, h6, h7⟩ := listen_each env mail _ r ok
  refine ⟨?_, ?_, h5, h4⟩
  · rw [← work_zero, ne_eq, h6]
    exact Decidable.not_not
  · rw [h7]
    cases r <;> simp

/-- A service at its end stays there. -/
private theorem stays (c : Hub.Call) (h : Hub) (st : h.stopped = true) : (c.after h).stopped = true := by
  cases c with
  | make lan hostname =>
    unfold Hub.Call.after Hub.make
    dsimp only
    cases LanScanner.new lan hostname <;> exact st
  | destroy i =>
    unfold Hub.Call.after Hub.destroy
    dsimp only
    split <;> exact st
  | run lan env i mail =>
    unfold Hub.Call.after Hub.run
    dsimp only
    split
    · split
      · unfold Hub.runService
        dsimp only
        rw [if_pos st]
        exact st
      · exact st
      · exact st
    · exact st

/-- C133 is false for the next scan: once a run has come back, no scanner on this service, those made later included, ever
reports anything again. A run sends its request and returns at once, whatever mail is there. -/
theorem c133_violated (lan : Lan) (env : ScanEnv) (i : Nat) (mail rest : List (Nat × Mail)) (h : Hub)
    (back : (Hub.run lan env i mail h).1 = .ok (some rest)) (calls : List Hub.Call)
    (lan' : Lan) (env' : ScanEnv) (k : Nat) (mail' : List (Nat × Mail)) :
    let now := Hub.after calls (Hub.run lan env i mail h).2
    (∀ r, (Hub.run lan' env' k mail' now).1 = .ok r → r = some mail') ∧
    ∀ j s s', Hub.Holds now j s → Hub.Holds (Hub.run lan' env' k mail' now).2 j s' → s'.scanner = s.scanner := by
  have st : (Hub.run lan env i mail h).2.stopped = true := by
    by_cases going : h.stopped = true
    · exact stays (.run lan env i mail) h going
    · exact ((c133_returns lan env i mail h (by simpa using going) _ back).2.1).1 (by simp)
  have key : ∀ (calls : List Hub.Call) (g : Hub), g.stopped = true → (Hub.after calls g).stopped = true := by
    intro calls
    induction calls with
    | nil => exact fun _ h => h
    | cons c calls ih => exact fun g hg => ih _ (stays c g hg)
  intro now
  have hn : now.stopped = true := key calls _ st
  clear_value now
  constructor
  · intro r hr
    unfold Hub.run at hr
    split at hr
    · split at hr
      · unfold Hub.runService at hr
        dsimp only at hr
        rw [hn] at hr
        cases hr
        rfl
      · cases hr
      · cases hr
    · cases hr
  · intro j s s' hs hs'
    rw [Hub.Holds] at hs hs'
    have after : ∀ x : LanScanner, x.scanner = s.scanner ∨ j ≠ k →
        (now.scanners.set k (some x))[j]? = some (some s') → s'.scanner = s.scanner := by
      intro x hx he
      by_cases ne : k = j
      · subst ne
        rw [List.getElem?_set_self (List.getElem?_eq_some_iff.mp hs).1] at he
        cases he
        exact hx.resolve_right (fun h => h rfl)
      · rw [List.getElem?_set_ne ne, hs] at he
        cases he
        rfl
    unfold Hub.run at hs'
    split at hs'
    · next x hx =>
      have same : (LanScanner.sendListIdentityRequest lan' env'.junk x).2.scanner = s.scanner ∨ j ≠ k := by
        by_cases ne : j = k
        · subst ne
          rw [hs] at hx
          cases hx
          exact .inl (send_keeps ..)
        · exact .inr ne
      cases hq : LanScanner.sendListIdentityRequest lan' env'.junk x with
      | mk q y =>
        rw [hq] at hs' same
        cases q with
        | ok u =>
          unfold Hub.runService at hs'
          dsimp only at hs'
          rw [hn] at hs'
          exact after y same hs'
        | throw e => exact after y same hs'
        | ub u => exact after y same hs'
    · rw [hs] at hs'
      cases hs'
      rfl

/-- C133 is false while another scanner waits: the run of scanner `i` does not come back, although its own scan is over, as long
as some other scanner of the service has not been answered. -/
theorem c133_violated_waits (lan : Lan) (env : ScanEnv) (i j : Nat) (mail : List (Nat × Mail)) (h : Hub)
    (going : h.stopped = false) (other : j ≠ i) (s : LanScanner) (waiting : Hub.Holds h j s) (one : 0 < s.scanner.receives)
    (unanswered : mailFor j mail = []) (rest : List (Nat × Mail)) :
    (Hub.run lan env i mail h).1 ≠ .ok (some rest) := by
  intro ok
  have hz := (c133_returns lan env i mail h going _ ok).1.1 (by simp)
  have hs := (c133_reports_partial lan env i mail h going _ ok).2.1 j s other waiting
  have e : (LanScanner.runService env (mailFor j mail) s).2 = s := by
    rw [unanswered]
    unfold LanScanner.runService
    split <;> rfl
  rw [e] at hs
  have := hz j s hs
  omega

/-- The result of a run, for mail that all goes to scanner `i`. -/
private def addressed (i : Nat) : Res (Option (List Mail)) → Res (Option (List (Nat × Mail)))
  | .ok o => .ok (o.map (·.map (fun m => (i, m))))
  | .throw e => .throw e
  | .ub u => .ub u

private theorem alone_work {h : Hub} {i : Nat} {s : LanScanner} (alone : Hub.Alone h i) (hi : Hub.Holds h i s) :
    h.work = 0 ↔ s.scanner.receives = 0 := by
  rw [work_zero]
  constructor
  · exact fun hz => hz i s hi
  · intro hz j t ht
    by_cases ne : j = i
    · subst ne
      rw [Hub.Holds] at hi ht
      rw [hi] at ht
      cases ht
      exact hz
    · exact alone j t ne ht

private theorem alone_set {h : Hub} {i : Nat} (alone : Hub.Alone h i) (x : LanScanner) (b : Bool) (c e : Nat) :
    Hub.Alone ⟨b, c, e, h.scanners.set i (some x)⟩ i := by
  intro j t ne ht
  rw [Hub.Holds] at ht
  dsimp only at ht
  rw [List.getElem?_set_ne ne.symm] at ht
  exact alone j t ne ht

private theorem listen_alone (env : ScanEnv) (i : Nat) (ms : List Mail) (h : Hub) (s : LanScanner) (alone : Hub.Alone h i)
    (hi : Hub.Holds h i s) :
    (Hub.listen env (ms.map (fun m => (i, m))) h).1 = addressed i (LanScanner.runService env ms s).1 := by
  induction ms generalizing h s with
  | nil =>
    have hw := alone_work alone hi
    unfold LanScanner.runService
    rw [List.map_nil, Hub.listen]
    dsimp only
    cases hr : s.scanner.receives with
    | zero => rw [if_pos (hw.2 hr)]; rfl
    | succ n => rw [if_neg (fun h => by rw [hw.1 h] at hr; cases hr)]; rfl
  | cons m ms ih =>
    have hw := alone_work alone hi
    have lt : i < h.scanners.length := (List.getElem?_eq_some_iff.mp hi).1
    rw [List.map_cons, Hub.listen]
    dsimp only
    cases hr : s.scanner.receives with
    | zero =>
      rw [if_pos (hw.2 hr), idle env _ s hr]
      rfl
    | succ n =>
      have hi' := hi
      rw [Hub.Holds] at hi'
      rw [if_neg (fun h => by rw [hw.1 h] at hr; cases hr), hi']
      obtain ⟨⟨hn, rc, lg⟩, mb, bd, sn⟩ := s
      simp only at hr
      subst hr
      cases bd with
      | false => exact ih h _ alone hi
      | true =>
        dsimp only
        rw [LanScanner.runService]
        simp only [Bool.not_true, Bool.false_eq_true, if_false]
        cases hq : Scanner.handleListIdentityResponse env (.datagram m.data) ⟨hn, n, lg⟩ with
        | mk q c =>
          cases q with
          | ok u =>
            exact ih _ _ (alone_set alone _ _ _ _) (by rw [Hub.Holds]; exact List.getElem?_set_self lt)
          | throw e => rfl
          | ub u => rfl

/-- C133, the part that holds in full: on a service that no run has brought to its end yet, and while no other scanner waits for
mail, a run ends exactly as that of a scanner with a service of its own. Missing: services with other scanners that wait
(`c133_violated_waits`) and services that were run before (`c133_violated`). -/
theorem c133_alone_partial (lan : Lan) (env : ScanEnv) (i : Nat) (mail : List Mail) (h : Hub) (s : LanScanner)
    (going : h.stopped = false) (here : Hub.Holds h i s) (alone : Hub.Alone h i) :
    (Hub.run lan env i (mail.map (fun m => (i, m))) h).1 =
      match (LanScanner.run lan env mail s).1 with
      | .ok none => .ok none
      | .ok (some unread) => .ok (some (unread.map (fun m => (i, m))))
      | .throw e => .throw e
      | .ub u => .ub u := by
  have lt : i < h.scanners.length := (List.getElem?_eq_some_iff.mp here).1
  have hi := here
  rw [Hub.Holds] at hi
  have key : (Hub.run lan env i (mail.map (fun m => (i, m))) h).1 = addressed i (LanScanner.run lan env mail s).1 := by
    unfold Hub.run
    rw [hi]
    dsimp only
    cases hq : LanScanner.sendListIdentityRequest lan env.junk s with
    | mk q s' =>
      cases q with
      | ok u =>
        have e : LanScanner.run lan env mail s = LanScanner.runService env mail s' := Prog.bind_ok hq
        rw [e]
        unfold Hub.runService
        dsimp only
        rw [if_neg (by rw [going]; exact (fun h => (nomatch h)))]
        exact listen_alone env i mail _ s' (alone_set alone _ _ _ _) (by rw [Hub.Holds]; exact List.getElem?_set_self lt)
      | throw e =>
        have e' : LanScanner.run lan env mail s = (.throw e, s') := Prog.bind_throw hq
        rw [e']
        rfl
      | ub u =>
        have e' : LanScanner.run lan env mail s = (.ub u, s') := Prog.bind_ub hq
        rw [e']
        rfl
  rw [key]
  cases (LanScanner.run lan env mail s).1 with
  | ok o => cases o <;> rfl
  | throw e => rfl
  | ub u => rfl

/-- C133, the first scan: on a new service, a scanner that is made and run ends as in C131, with a service of its own. -/
theorem c133_first_partial (lan : Lan) (env : ScanEnv) (hostname : String) (mail : List Mail) :
    (∀ i h, Hub.make lan hostname Hub.new = (.ok i, h) →
      (Hub.run lan env i (mail.map (fun m => (i, m))) h).1 =
        match (LanScanner.scan lan env hostname mail).1 with
        | .ok none => .ok none
        | .ok (some unread) => .ok (some (unread.map (fun m => (i, m))))
        | .throw e => .throw e
        | .ub u => .ub u) ∧
    (∀ e, (Hub.make lan hostname Hub.new).1 = .throw e ↔ (LanScanner.scan lan env hostname mail).1 = .throw e ∧ lan.creates = false) := by
  constructor
  · intro i h hm
    unfold Hub.make at hm
    cases hn : LanScanner.new lan hostname with
    | ok s =>
      rw [hn] at hm
      cases hm
      have e : (LanScanner.scan lan env hostname mail).1 = (LanScanner.run lan env mail s).1 := by
        unfold LanScanner.scan
        rw [hn]
      rw [e]
      exact c133_alone_partial lan env 0 mail _ s rfl rfl (by
        intro j t ne ht
        cases j with
        | zero => exact absurd rfl ne
        | succ j => cases ht)
    | throw e => rw [hn] at hm; cases hm
    | ub u => rw [hn] at hm; cases hm
  · intro e
    unfold Hub.make LanScanner.scan LanScanner.new
    cases lan.creates with
    | true =>
      simp only [if_true]
      exact ⟨fun h => (nomatch h), fun h => (nomatch h.2)⟩
    | false =>
      simp only [Bool.false_eq_true, if_false]
      exact ⟨fun h => by cases h; exact ⟨rfl, trivial⟩, fun h => by cases h.1; rfl⟩

/-- Making a scanner adds one that waits, has sent and reported nothing, under a number that nobody had; it changes nothing
about the service and the other scanners. If it throws, nothing has changed. -/
theorem c133_made (lan : Lan) (hostname : String) (h : Hub) :
    (∀ i, (Hub.make lan hostname h).1 = .ok i →
      (∀ s, ¬ Hub.Holds h i s) ∧
      (∃ s, Hub.Holds (Hub.make lan hostname h).2 i s ∧ s.scanner = ⟨hostname, 1, []⟩ ∧ s.sent = []) ∧
      (∀ j s, j ≠ i → (Hub.Holds (Hub.make lan hostname h).2 j s ↔ Hub.Holds h j s)) ∧
      (Hub.make lan hostname h).2.stopped = h.stopped ∧ (Hub.make lan hostname h).2.cancelled = h.cancelled ∧
      (Hub.make lan hostname h).2.errors = h.errors) ∧
    ((∀ i, (Hub.make lan hostname h).1 ≠ .ok i) → Hub.make lan hostname h = (.throw systemError, h)) := by
  unfold Hub.make LanScanner.new
  cases lan.creates with
  | false =>
    simp only [Bool.false_eq_true, if_false]
    exact ⟨fun i h => (nomatch h), fun _ => trivial⟩
  | true =>
    simp only [if_true]
    refine ⟨fun i hi => ?_, fun h => absurd rfl (h _)⟩
    cases hi
    refine ⟨?_, ⟨⟨Scanner.new hostname, false, false, []⟩, ?_, rfl, rfl⟩, ?_, trivial, trivial, trivial⟩
    · intro s hs
      rw [Hub.Holds, List.getElem?_eq_none (Nat.le_refl _)] at hs
      cases hs
    · rw [Hub.Holds]
      simp
    · intro j s ne
      rw [Hub.Holds, Hub.Holds]
      dsimp only
      by_cases lt : j < h.scanners.length
      · rw [List.getElem?_append_left lt]
      · rw [List.getElem?_eq_none (by simp; omega), List.getElem?_eq_none (by omega)]

/-- Destroying a scanner that exists removes it and no other; the handler of its receive operation remains to be called. It does
not restart the service. Destroying one that does not exist is undefined. -/
theorem c133_destroyed (i : Nat) (h : Hub) :
    (∀ s, Hub.Holds h i s → (Hub.destroy i h).1 = .ok () ∧ (∀ t, ¬ Hub.Holds (Hub.destroy i h).2 i t) ∧
      (∀ j t, j ≠ i → (Hub.Holds (Hub.destroy i h).2 j t ↔ Hub.Holds h j t)) ∧
      (Hub.destroy i h).2.cancelled = h.cancelled + s.scanner.receives ∧
      (Hub.destroy i h).2.stopped = h.stopped ∧ (Hub.destroy i h).2.errors = h.errors) ∧
    ((∀ s, ¬ Hub.Holds h i s) → (Hub.destroy i h).1 = .ub .danglingAccess) := by
  constructor
  · intro s hs
    have lt : i < h.scanners.length := (List.getElem?_eq_some_iff.mp hs).1
    rw [Hub.Holds] at hs
    have e : Hub.destroy i h =
        (.ok (), { h with cancelled := h.cancelled + s.scanner.receives, scanners := h.scanners.set i none }) := by
      unfold Hub.destroy
      rw [hs]
    rw [e]
    refine ⟨rfl, ?_, ?_, rfl, rfl, rfl⟩
    · intro t ht
      rw [Hub.Holds, List.getElem?_set_self lt] at ht
      cases ht
    · intro j t ne
      rw [Hub.Holds, Hub.Holds]
      dsimp only
      rw [List.getElem?_set_ne ne.symm]
  · intro hn
    unfold Hub.destroy
    split
    · next s hs => exact absurd hs (hn s)
    · rfl

/-- A network on which everything works. -/
private def plainLan : Lan := ⟨[9], true, fun _ => false, fun _ => true⟩

/-- A service with two scanners. -/
private def pair : Hub := Hub.after [.make plainLan "a", .make plainLan "b"] Hub.new

/-- The answer of the device of `exampleDevice`. -/
private def answerMail : Mail := ⟨9, request 0x63 0 (cpf [(0x0C, identity exampleDevice [0x41])])⟩

private def plainEnv : ScanEnv := ⟨true, true, 0, exampleDevice⟩

/-- Two scanners: the first has asked and is answered; the second has not asked, so it hears nothing, and the run waits for it. -/
example : pair.stopped = false ∧
    (Hub.run plainLan plainEnv 0 [(1, answerMail), (0, answerMail)] pair).1 = .ok none ∧
    ((Hub.run plainLan plainEnv 0 [(1, answerMail), (0, answerMail)] pair).2.scanners.map
      (fun o => o.map (·.scanner.log))) = [some [.reported exampleDevice], some []] := by decide +kernel

/-- The second scanner has no port before it has sent something, so it is not answered and the run waits. -/
example : (Hub.run plainLan plainEnv 0 [(0, answerMail)] pair).1 = .ok none ∧
    mailFor 1 [(0, answerMail)] = [] := by decide +kernel

/-- One scanner: its run comes back; a second scanner, made later, hears nothing. -/
example : (Hub.run plainLan plainEnv 0 [(0, answerMail)] (Hub.after [.make plainLan "a"] Hub.new)).1 = .ok (some []) ∧
    (Hub.run plainLan plainEnv 1 [(1, answerMail)] (Hub.after [.make plainLan "a", .run plainLan plainEnv 0 [(0, answerMail)],
      .destroy 0, .make plainLan "b"] Hub.new)).1 = .ok (some [(1, answerMail)]) := by decide +kernel

/-- A destroyed scanner is no hindrance to the next one, if it was not run. -/
example : let h := Hub.after [.make plainLan "a", .destroy 0, .make plainLan "b"] Hub.new
    h.stopped = false ∧ h.cancelled = 1 ∧ (h.scanners.map Hub.waits) = [0, 1] ∧
    (Hub.run plainLan plainEnv 1 [(1, answerMail)] h).1 = .ok (some []) := by decide +kernel

end Eip
