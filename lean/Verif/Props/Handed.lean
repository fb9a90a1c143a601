import Verif.Model.Handed
import Verif.Props.Connections
import Verif.Props.Effects
/-
C132: a connection that getConnection has handed out stays that connection.
-/
namespace Eip
open Spec

/-- What a call does to the list of connections. -/
private theorem list_after (op : Op) (w : World) :
    (∃ o t c, op = .createConnection o t ∧ (op.run w).1 = .ok () ∧ (op.run w).2.s.connections = w.s.connections ++ [c]) ∨
    (∃ n, op = .closeConnection n ∧ (op.run w).1 = .ok () ∧ n < w.s.connections.length ∧
      (op.run w).2.s.connections = w.s.connections.eraseIdx n) ∨
    ((∀ o t, op = .createConnection o t → (op.run w).1 ≠ .ok ()) ∧ (∀ n, op = .closeConnection n → (op.run w).1 ≠ .ok ()) ∧
      (op.run w).2.s.connections = w.s.connections) := by
  have passive : Passive op → (op.run w).2.s.connections = w.s.connections := by
    intro hp
    rw [c56_passive op hp w]
  cases op with
  | createConnection o t =>
    have e : Op.run (.createConnection o t) w = (Session.createConnection o t).forget w := rfl
    rw [forget_eq] at e
    cases hr : Session.createConnection o t w with
    | mk r w' =>
      rw [hr] at e
      rcases r with i | x | u
      · obtain ⟨s, data, oToT, tToO, oApi, tApi, _, _, _, hi, hw⟩ := create_ok hr
        refine .inl ⟨o, t, _, rfl, by rw [e], by rw [e]; dsimp only; rw [hw]; rfl⟩
      · refine .inr (.inr ⟨fun _ _ _ => by rw [e]; exact (fun h => (nomatch h)), fun _ h => (nomatch h), ?_⟩)
        rw [e]
        exact (c41_failed w w' o t _ (by intro _ h; cases h) hr).1
      · refine .inr (.inr ⟨fun _ _ _ => by rw [e]; exact (fun h => (nomatch h)), fun _ h => (nomatch h), ?_⟩)
        rw [e]
        exact (c41_failed w w' o t _ (by intro _ h; cases h) hr).1
  | closeConnection n =>
    have e : Op.run (.closeConnection n) w = Session.closeConnection n w := rfl
    have hc := c42_closed w (Session.closeConnection n w).2 n (Session.closeConnection n w).1 rfl
    by_cases hr : (Session.closeConnection n w).1 = .ok ()
    · obtain ⟨hn, e'⟩ := hc.1 hr
      exact .inr (.inl ⟨n, rfl, by rw [e]; exact hr, hn, by rw [e, e', List.eraseIdx_eq_take_drop_succ]⟩)
    · exact .inr (.inr ⟨fun _ _ h => (nomatch h), fun _ _ => by rw [e]; exact hr, by rw [e]; exact hc.2.1 hr⟩)
  | «open» h' p i =>
    refine .inr (.inr ⟨fun _ _ h => (nomatch h), fun _ h => (nomatch h), ?_⟩)
    have hc := open_cases h' p i w
    have e : Op.run (.open h' p i) w = Session.open h' p i w := rfl
    rw [e]
    generalize Session.open h' p i w = r at hc ⊢
    cases hc <;> rfl
  | close =>
    refine .inr (.inr ⟨fun _ _ h => (nomatch h), fun _ h => (nomatch h), ?_⟩)
    have hc := close_cases w
    have e : Op.run .close w = Session.close w := rfl
    rw [e]
    generalize Session.close w = r at hc ⊢
    cases hc <;> rfl
  | getConnection n => exact .inr (.inr ⟨fun _ _ h => (nomatch h), fun _ h => (nomatch h), passive trivial⟩)
  | receiveIOPacket => exact .inr (.inr ⟨fun _ _ h => (nomatch h), fun _ h => (nomatch h), passive trivial⟩)
  | sendIOPacket p => exact .inr (.inr ⟨fun _ _ h => (nomatch h), fun _ h => (nomatch h), passive trivial⟩)
  | getAttribute δ c' init x y z => exact .inr (.inr ⟨fun _ _ h => (nomatch h), fun _ h => (nomatch h), passive trivial⟩)
  | setAttribute x y z data => exact .inr (.inr ⟨fun _ _ h => (nomatch h), fun _ h => (nomatch h), passive trivial⟩)

private theorem follow_create (grow : Nat → Nat) (o t : ConnectionInfo) (c : Connection) (r : Res Unit)
    (l : List Connection) (v : Vec Connection) (l' : List Connection) (hr : r = .ok ()) (hl : l = l' ++ [c]) :
    HandedWorld.follow grow (.createConnection o t) r l v = v.pushBack grow c := by
  subst hr hl
  simp [HandedWorld.follow]

private theorem follow_close (grow : Nat → Nat) (n : Nat) (r : Res Unit) (l : List Connection) (v : Vec Connection)
    (hr : r = .ok ()) : HandedWorld.follow grow (.closeConnection n) r l v = v.erase n := by
  subst hr
  simp [HandedWorld.follow]

private theorem follow_other (grow : Nat → Nat) (op : Op) (r : Res Unit) (l : List Connection) (v : Vec Connection)
    (h1 : ∀ o t, op = .createConnection o t → r ≠ .ok ()) (h2 : ∀ n, op = .closeConnection n → r ≠ .ok ()) :
    HandedWorld.follow grow op r l v = v := by
  unfold HandedWorld.follow
  split
  · exact absurd rfl (h1 _ _ rfl)
  · exact absurd rfl (h2 _ rfl)
  · rfl

private theorem step_vec (grow : Nat → Nat) (op : Op) (h : HandedWorld) : (HandedWorld.step grow op h).2.vec =
    HandedWorld.follow grow op (op.run h.world).1 (op.run h.world).2.s.connections h.vec := rfl

/-- The vector after a call. -/
private theorem vec_after (grow : Nat → Nat) (op : Op) (h : HandedWorld) :
    (∃ o t c, op = .createConnection o t ∧ (op.run h.world).1 = .ok () ∧
      (op.run h.world).2.s.connections = h.world.s.connections ++ [c] ∧
      (HandedWorld.step grow op h).2.vec = h.vec.pushBack grow c) ∨
    (∃ n, op = .closeConnection n ∧ (op.run h.world).1 = .ok () ∧ n < h.world.s.connections.length ∧
      (op.run h.world).2.s.connections = h.world.s.connections.eraseIdx n ∧
      (HandedWorld.step grow op h).2.vec = h.vec.erase n) ∨
    ((∀ o t, op = .createConnection o t → (op.run h.world).1 ≠ .ok ()) ∧
      (∀ n, op = .closeConnection n → (op.run h.world).1 ≠ .ok ()) ∧
      (op.run h.world).2.s.connections = h.world.s.connections ∧ (HandedWorld.step grow op h).2.vec = h.vec) := by
  rcases list_after op h.world with ⟨o, t, c, rfl, hr, hc⟩ | ⟨n, rfl, hr, hn, hc⟩ | ⟨h1, h2, hc⟩
  · exact .inl ⟨o, t, c, rfl, hr, hc, (step_vec grow _ h).trans
      (follow_create grow o t c ((Op.createConnection o t).run h.world).1
        ((Op.createConnection o t).run h.world).2.s.connections h.vec h.world.s.connections hr hc)⟩
  · exact .inr (.inl ⟨n, rfl, hr, hn, hc, (step_vec grow _ h).trans
      (follow_close grow n ((Op.closeConnection n).run h.world).1
        ((Op.closeConnection n).run h.world).2.s.connections h.vec hr)⟩)
  · exact .inr (.inr ⟨h1, h2, hc, (step_vec grow _ h).trans
      (follow_other grow op (op.run h.world).1 (op.run h.world).2.s.connections h.vec h1 h2)⟩)

private theorem pushBack_elems {α : Type} (grow : Nat → Nat) (x : α) (v : Vec α) :
    (v.pushBack grow x).elems = v.elems ++ [x] := by
  unfold Vec.pushBack
  split <;> rfl

private theorem deref_ok {α : Type} {r : Handed} {v : Vec α} {c : α} (h : v.deref r = .ok c) :
    r.block = v.block ∧ v.elems[r.index]? = some c := by
  unfold Vec.deref at h
  split at h
  · cases h
  · next hb =>
    split at h
    · next x hx =>
      cases h
      exact ⟨Decidable.not_not.mp hb, hx⟩
    · cases h

private theorem deref_pushBack {α : Type} (grow : Nat → Nat) (x : α) (v : Vec α) (r : Handed) (c : α)
    (shows : v.deref r = .ok c) :
    (v.pushBack grow x).deref r = if v.elems.length < v.capacity then .ok c else .ub .danglingAccess := by
  obtain ⟨hb, hi⟩ := deref_ok shows
  have lt : r.index < v.elems.length := (List.getElem?_eq_some_iff.mp hi).1
  unfold Vec.pushBack
  split
  · unfold Vec.deref
    dsimp only
    rw [if_neg (fun h => h hb), List.getElem?_append_left lt, hi]
  · unfold Vec.deref
    dsimp only
    rw [if_pos (by omega)]

private theorem deref_erase {α : Type} (n : Nat) (v : Vec α) (r : Handed) (c : α) (shows : v.deref r = .ok c) :
    (v.erase n).deref r = if r.index < n then .ok c
      else match v.elems[r.index + 1]? with
        | some next => .ok next
        | none => .ub .danglingAccess := by
  obtain ⟨hb, hi⟩ := deref_ok shows
  unfold Vec.erase Vec.deref
  dsimp only
  rw [if_neg (fun h => h hb), List.getElem?_eraseIdx]
  by_cases lt : r.index < n
  · rw [if_pos lt, if_pos lt, hi]
  · rw [if_neg lt, if_neg lt]
    cases v.elems[r.index + 1]? <;> rfl

private theorem handed_shows (h : HandedWorld) (n : Nat) (r : Handed)
    (given : (HandedWorld.getConnection n h).1 = .ok r) :
    ∃ c, r.index = n ∧ h.vec.deref r = .ok c ∧ h.vec.elems[n]? = some c := by
  unfold HandedWorld.getConnection at given
  split at given
  · next lt =>
    cases given
    refine ⟨h.vec.elems[n], rfl, ?_, List.getElem?_eq_getElem lt⟩
    unfold Vec.deref
    dsimp only
    rw [if_neg (fun h => h rfl), List.getElem?_eq_getElem lt]
  · cases given

/-- A session with two connections and a device that closes the first, its vector having room for `room` connections. -/
def handedTwo (room : Nat) : HandedWorld := ⟨twoConnections, ⟨0, room, [stored 3, stored 4]⟩⟩

/-- A session with one connection and a device that accepts another. -/
def handedOpening (room : Nat) : HandedWorld :=
  ⟨{ answering (openAnswer 3) with s := { (answering []).s with connections := [stored 4] } }, ⟨0, room, [stored 4]⟩⟩

/-- The vector holds what the list of the session model holds, whatever is called, and the calls behave as they do without
the vector: the memory view changes nothing but what can be said about references. -/
theorem c132_follows (grow : Nat → Nat) (ops : List Op) (h : HandedWorld) (same : h.vec.elems = h.world.s.connections) :
    (HandedWorld.steps grow ops h).1.vec.elems = (HandedWorld.steps grow ops h).1.world.s.connections ∧
    (HandedWorld.steps grow ops h).1.world = (runOps ops h.world).1 ∧
    (HandedWorld.steps grow ops h).2 = (runOps ops h.world).2 := by
  induction ops generalizing h with
  | nil => exact ⟨same, rfl, rfl⟩
  | cons op ops ih =>
    have hs : (HandedWorld.step grow op h).2.vec.elems = (HandedWorld.step grow op h).2.world.s.connections := by
      have e : (HandedWorld.step grow op h).2.world = (op.run h.world).2 := rfl
      rw [e]
      rcases vec_after grow op h with ⟨o, t, c, _, _, hc, hv⟩ | ⟨n, _, _, _, hc, hv⟩ | ⟨_, _, hc, hv⟩
      · rw [hc, hv, ← same, pushBack_elems]
      · rw [hc, hv, ← same]
        rfl
      · rw [hc, hv, same]
    have e1 : (HandedWorld.step grow op h).1 = (op.run h.world).1 := rfl
    have e2 : (HandedWorld.step grow op h).2.world = (op.run h.world).2 := rfl
    have go := ih (HandedWorld.step grow op h).2 hs
    rw [e2] at go
    cases hq : op.run h.world with
    | mk r w' =>
      rw [hq] at e1 e2 go
      cases hp : HandedWorld.step grow op h with
      | mk r' h' =>
        rw [hp] at e1 e2 go hs
        dsimp only at e1 e2 go hs
        subst e1
        unfold HandedWorld.steps runOps
        rw [hp, hq]
        cases r' with
        | ok a => exact go
        | throw e => exact go
        | ub u => exact ⟨hs, e2, rfl⟩

/-- What `getConnection` hands out: for a number in range, a reference that shows the connection with that number; for any other
number the behaviour is undefined. Asking changes nothing, so it leaves earlier references alone. -/
theorem c132_given (h : HandedWorld) (n : Nat) :
    (HandedWorld.getConnection n h).2 = h ∧
    (∀ r, (HandedWorld.getConnection n h).1 = .ok r → ∃ c, h.vec.elems[n]? = some c ∧ h.vec.deref r = .ok c) ∧
    ((HandedWorld.getConnection n h).1 = .ub .indexOutOfRange ↔ h.vec.elems.length ≤ n) ∧
    ∀ e, (HandedWorld.getConnection n h).1 ≠ .throw e := by
  refine ⟨?_, ?_, ?_, ?_⟩
  · unfold HandedWorld.getConnection
    split <;> rfl
  · intro r hr
    obtain ⟨c, _, hc, hn⟩ := handed_shows h n r hr
    exact ⟨c, hn, hc⟩
  · unfold HandedWorld.getConnection
    split
    · exact ⟨fun h => (nomatch h), fun h => by omega⟩
    · exact ⟨fun _ => by omega, fun _ => rfl⟩
  · intro e
    unfold HandedWorld.getConnection
    split <;> exact (fun h => (nomatch h))

example : (HandedWorld.getConnection 1 (handedTwo 2)).1 = .ok ⟨0, 1⟩ ∧ (handedTwo 2).vec.deref ⟨0, 1⟩ = .ok (stored 4) := by
  decide +kernel

/-- What becomes of a reference that shows a connection, call by call: a connection that is created leaves it alone if there was
room for one more and otherwise leaves it dangling; closing a connection behind it leaves it alone; closing the one it shows or one
before makes it show the next connection, or dangle if there is none; and nothing else touches it. -/
theorem c132_step (grow : Nat → Nat) (op : Op) (h : HandedWorld) (same : h.vec.elems = h.world.s.connections) (r : Handed)
    (c : Connection) (shows : h.vec.deref r = .ok c) :
    (HandedWorld.step grow op h).2.vec.deref r =
      match op, (op.run h.world).1 with
      | .createConnection _ _, .ok _ =>
        if h.world.s.connections.length < h.vec.capacity then .ok c else .ub .danglingAccess
      | .closeConnection n, .ok _ =>
        if r.index < n then .ok c
        else match h.world.s.connections[r.index + 1]? with
          | some next => .ok next
          | none => .ub .danglingAccess
      | _, _ => .ok c := by
  rcases vec_after grow op h with ⟨o, t, c', rfl, hr, _, hv⟩ | ⟨n, rfl, hr, _, _, hv⟩ | ⟨h1, h2, _, hv⟩
  · rw [hv, hr, deref_pushBack grow c' h.vec r c shows, same]
  · rw [hv, hr, deref_erase n h.vec r c shows, same]
    cases h.world.s.connections[r.index + 1]? <;> rfl
  · rw [hv, shows]
    generalize (op.run h.world).1 = q at h1 h2
    split
    · exact absurd rfl (h1 _ _ rfl)
    · exact absurd rfl (h2 _ rfl)
    · rfl

example : (handedTwo 2).vec.elems = (handedTwo 2).world.s.connections ∧ (handedTwo 2).vec.deref ⟨0, 0⟩ = .ok (stored 3) ∧
    (HandedWorld.step (2 * ·) (.closeConnection 0) (handedTwo 2)).2.vec.deref ⟨0, 0⟩ = .ok (stored 4) := by decide +kernel

/-- Violated, by creating: whatever the growth policy of the vector, a connection created when the vector is full leaves every
reference handed out before dangling. -/
theorem c132_violated (grow : Nat → Nat) (h : HandedWorld) (o t : ConnectionInfo)
    (full : h.vec.elems.length = h.vec.capacity) (works : ((Op.createConnection o t).run h.world).1 = .ok ())
    (n : Nat) (r : Handed) (given : (HandedWorld.getConnection n h).1 = .ok r) :
    (HandedWorld.step grow (.createConnection o t) h).2.vec.deref r = .ub .danglingAccess := by
  rcases vec_after grow (.createConnection o t) h with ⟨o, t, c', _, hr, _, hv⟩ | ⟨n, e, _⟩ | ⟨h1, _⟩
  · obtain ⟨c, _, hc, _⟩ := handed_shows h _ r given
    rw [hv, deref_pushBack grow c' h.vec r c hc, if_neg (by omega)]
  · cases e
  · exact absurd works (h1 _ _ rfl)

example : (handedOpening 1).vec.elems.length = (handedOpening 1).vec.capacity ∧
    ((Op.createConnection ⟨1, 2, 3⟩ ⟨4, 5, 6⟩).run (handedOpening 1).world).1 = .ok () ∧
    (HandedWorld.getConnection 0 (handedOpening 1)).1 = .ok ⟨0, 0⟩ := by decide +kernel

/-- Violated, by closing: after connection `k` is closed, the reference handed out for `k` or a later number silently shows
the connection that came after its own, and the last one dangles. -/
theorem c132_violated_moved (grow : Nat → Nat) (h : HandedWorld) (same : h.vec.elems = h.world.s.connections) (k n : Nat)
    (le : k ≤ n) (works : ((Op.closeConnection k).run h.world).1 = .ok ()) (r : Handed)
    (given : (HandedWorld.getConnection n h).1 = .ok r) :
    (HandedWorld.step grow (.closeConnection k) h).2.vec.deref r =
      match h.world.s.connections[n + 1]? with
      | some next => .ok next
      | none => .ub .danglingAccess := by
  obtain ⟨c, hr, hc, _⟩ := handed_shows h n r given
  have := c132_step grow (.closeConnection k) h same r c hc
  rw [this, works, hr]
  dsimp only
  rw [if_neg (by omega)]

example : (handedTwo 2).vec.elems = (handedTwo 2).world.s.connections ∧
    ((Op.closeConnection 0).run (handedTwo 2).world).1 = .ok () ∧
    (HandedWorld.getConnection 0 (handedTwo 2)).1 = .ok ⟨0, 0⟩ := by decide +kernel

/-- A reference whose allocation is gone is dangling for good. -/
theorem c132_gone (grow : Nat → Nat) (ops : List Op) (h : HandedWorld) (r : Handed) (gone : r.block < h.vec.block) :
    (HandedWorld.steps grow ops h).1.vec.deref r = .ub .danglingAccess := by
  have key : h.vec.block ≤ (HandedWorld.steps grow ops h).1.vec.block := by
    clear gone
    induction ops generalizing h with
    | nil => exact Nat.le_refl _
    | cons op ops ih =>
      have hs : h.vec.block ≤ (HandedWorld.step grow op h).2.vec.block := by
        rcases vec_after grow op h with ⟨o, t, c, _, _, hc, hv⟩ | ⟨n, _, _, _, hc, hv⟩ | ⟨_, _, hc, hv⟩
        · rw [hv]
          unfold Vec.pushBack
          split
          · exact Nat.le_refl _
          · exact Nat.le_succ _
        · rw [hv]
          exact Nat.le_refl _
        · rw [hv]
          exact Nat.le_refl _
      unfold HandedWorld.steps
      have go := ih (HandedWorld.step grow op h).2
      cases hp : HandedWorld.step grow op h with
      | mk q h' =>
        rw [hp] at hs go
        cases q with
        | ok a => exact Nat.le_trans hs go
        | throw e => exact Nat.le_trans hs go
        | ub u => exact hs
  unfold Vec.deref
  rw [if_pos (by omega)]

example : (0 : Nat) < (HandedWorld.step (2 * ·) (.createConnection ⟨1, 2, 3⟩ ⟨4, 5, 6⟩) (handedOpening 1)).2.vec.block := by
  decide +kernel

/-- The part that holds: over a history that closes only connections behind it, and tries to create no more connections than the
vector has room for, a reference keeps showing the connection it was handed out for. Missing: other histories (see
`c132_violated` and `c132_violated_moved`). -/
theorem c132_kept_partial (grow : Nat → Nat) (ops : List Op) (h : HandedWorld) (n : Nat) (r : Handed)
    (given : (HandedWorld.getConnection n h).1 = .ok r)
    (behind : ∀ k, Op.closeConnection k ∈ ops → n < k)
    (room : h.vec.elems.length + (ops.filter (fun op => op matches .createConnection _ _)).length ≤ h.vec.capacity) :
    ∃ c, h.vec.elems[n]? = some c ∧ (HandedWorld.steps grow ops h).1.vec.deref r = .ok c := by
  obtain ⟨c, hr, hc, hn⟩ := handed_shows h n r given
  refine ⟨c, hn, ?_⟩
  clear given hn
  induction ops generalizing h with
  | nil => exact hc
  | cons op ops ih =>
    have hs : (HandedWorld.step grow op h).2.vec.deref r = .ok c ∧
        (HandedWorld.step grow op h).2.vec.elems.length +
          (ops.filter (fun op => op matches .createConnection _ _)).length ≤
          (HandedWorld.step grow op h).2.vec.capacity := by
      rcases vec_after grow op h with ⟨o, t, c', rfl, _, _, hv⟩ | ⟨k, rfl, _, _, _, hv⟩ | ⟨_, _, _, hv⟩
      · rw [List.filter_cons_of_pos rfl, List.length_cons] at room
        have lt : h.vec.elems.length < h.vec.capacity := by omega
        rw [hv]
        refine ⟨by rw [deref_pushBack grow c' h.vec r c hc, if_pos lt], ?_⟩
        unfold Vec.pushBack
        rw [if_pos lt]
        simp only [List.length_append, List.length_singleton]
        omega
      · have lt := behind k (List.mem_cons_self ..)
        rw [List.filter_cons_of_neg (by simp)] at room
        rw [hv]
        refine ⟨by rw [deref_erase k h.vec r c hc, if_pos (by omega)], ?_⟩
        have := List.length_eraseIdx_le h.vec.elems k
        have e1 : (h.vec.erase k).elems = h.vec.elems.eraseIdx k := rfl
        have e2 : (h.vec.erase k).capacity = h.vec.capacity := rfl
        rw [e1, e2]
        omega
      · rw [hv]
        refine ⟨hc, Nat.le_trans (Nat.add_le_add_left ?_ _) room⟩
        exact List.Sublist.length_le (List.Sublist.filter _ (List.sublist_cons_self ..))
    have go := ih (HandedWorld.step grow op h).2 (fun k hk => behind k (List.mem_cons_of_mem _ hk)) hs.2 hs.1
    unfold HandedWorld.steps
    cases hp : HandedWorld.step grow op h with
    | mk q h' =>
      rw [hp] at hs go
      cases q with
      | ok a => exact go
      | throw e => exact go
      | ub u => exact hs.1

example : (HandedWorld.getConnection 0 (handedOpening 2)).1 = .ok ⟨0, 0⟩ ∧
    (handedOpening 2).vec.elems.length +
      ([Op.createConnection ⟨1, 2, 3⟩ ⟨4, 5, 6⟩, .closeConnection 1].filter
        (fun op => op matches .createConnection _ _)).length ≤ (handedOpening 2).vec.capacity := by decide +kernel

end Eip
