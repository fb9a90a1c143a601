import Verif.Lemmas.Requests
/-
The numbers used in the forward open requests of a history.
-/
namespace Eip
open Spec

/-- `k` successive serial numbers. -/
def serials : Nat → UInt16 → List UInt16
  | 0, _ => []
  | k + 1, sn => sn :: serials k (sn + 1)

/-- `k` successive pairs of connection ids. -/
def idPairs : Nat → UInt32 → List (UInt32 × UInt32)
  | 0, _ => []
  | k + 1, id => (id, id + 1) :: idPairs k (id + 1 + 1)

theorem mem_serials {k : Nat} {sn x : UInt16} (h : x ∈ serials k sn) : ∃ i, i < k ∧ x.toNat = (sn.toNat + i) % 65536 := by
  induction k generalizing sn with
  | zero => cases h
  | succ k ih =>
    rcases List.mem_cons.mp h with rfl | h
    · exact ⟨0, by omega, by have := x.toNat_lt; omega⟩
    · obtain ⟨i, hi, e⟩ := ih h
      refine ⟨i + 1, by omega, ?_⟩
      rw [e, UInt16.toNat_add]
      have : (1 : UInt16).toNat = 1 := rfl
      omega

theorem serials_nodup {k : Nat} {sn : UInt16} (h : k ≤ 65536) : (serials k sn).Nodup := by
  induction k generalizing sn with
  | zero => exact List.nodup_nil
  | succ k ih =>
    refine List.nodup_cons.mpr ⟨?_, ih (by omega)⟩
    intro hm
    obtain ⟨i, hi, e⟩ := mem_serials hm
    rw [UInt16.toNat_add] at e
    have := sn.toNat_lt
    have : (1 : UInt16).toNat = 1 := rfl
    omega

/-- The pairs one after the other. -/
def flat (l : List (UInt32 × UInt32)) : List UInt32 := l.flatMap (fun p => [p.1, p.2])

theorem mem_ids {k : Nat} {id x : UInt32} (h : x ∈ flat (idPairs k id)) :
    ∃ i, i < 2 * k ∧ x.toNat = (id.toNat + i) % 4294967296 := by
  induction k generalizing id with
  | zero => cases h
  | succ k ih =>
    have h : x ∈ id :: (id + 1) :: flat (idPairs k (id + 1 + 1)) := h
    have h1 : (1 : UInt32).toNat = 1 := rfl
    rcases List.mem_cons.mp h with rfl | h
    · exact ⟨0, by omega, by have := x.toNat_lt; omega⟩
    · rcases List.mem_cons.mp h with rfl | h
      · exact ⟨1, by omega, by rw [UInt32.toNat_add, h1]⟩
      · obtain ⟨i, hi, e⟩ := ih h
        refine ⟨i + 2, by omega, ?_⟩
        rw [e, UInt32.toNat_add, UInt32.toNat_add, h1]
        omega

theorem ids_nodup {k : Nat} {id : UInt32} (h : k ≤ 2147483648) : (flat (idPairs k id)).Nodup := by
  induction k generalizing id with
  | zero => exact List.nodup_nil
  | succ k ih =>
    show (id :: (id + 1) :: flat (idPairs k (id + 1 + 1))).Nodup
    have h1 : (1 : UInt32).toNat = 1 := rfl
    have := id.toNat_lt
    refine List.nodup_cons.mpr ⟨?_, List.nodup_cons.mpr ⟨?_, ih (by omega)⟩⟩
    · intro hm
      rcases List.mem_cons.mp hm with e | hm
      · have := congrArg UInt32.toNat e
        rw [UInt32.toNat_add, h1] at this
        omega
      · obtain ⟨i, hi, e⟩ := mem_ids hm
        rw [UInt32.toNat_add, UInt32.toNat_add, h1] at e
        omega
    · intro hm
      obtain ⟨i, hi, e⟩ := mem_ids hm
      rw [UInt32.toNat_add (id + 1) 1, UInt32.toNat_add id 1, h1] at e
      omega

theorem sublist_flatMap {α β : Type} {l l' : List α} (f : α → List β) (h : l.Sublist l') :
    (l.flatMap f).Sublist (l'.flatMap f) := by
  induction h with
  | slnil => exact List.Sublist.refl _
  | cons a _ ih => 
    rw [List.flatMap_cons]
    exact ih.trans (List.sublist_append_right ..)
  | cons_cons a _ ih => 
    rw [List.flatMap_cons, List.flatMap_cons]
    exact (List.Sublist.refl _).append ih

theorem nodup_map {α β : Type} {l : List α} {f : α → β} (inj : ∀ a b, f a = f b → a = b) (h : l.Nodup) :
    (l.map f).Nodup := by
  induction l with
  | nil => exact List.nodup_nil
  | cons a l ih =>
    obtain ⟨h1, h2⟩ := List.nodup_cons.mp h
    refine List.nodup_cons.mpr ⟨?_, ih h2⟩
    intro hm
    obtain ⟨b, hb, e⟩ := List.mem_map.mp hm
    exact h1 (inj _ _ e ▸ hb)

/-- What a history of calls does to connections and counters. -/
structure History (ops : List Op) (w w' : World) : Prop where
  requests : ∃ evs, w'.trace = w.trace ++ evs ∧
    ((openRequests evs).map serialOf).Sublist ((serials (attempts ops) w.s.nextConnectionSn).map (fun x => le 2 x.toNat)) ∧
    ((openRequests evs).map (fun b => (oToTOf b, tToOOf b))).Sublist
      ((idPairs (attempts ops) w.s.nextConnectionId).map (fun p => (le 4 p.1.toNat, le 4 p.2.toNat)))
  conns : (w'.s.connections.map (·.connectionSn)).Sublist
    (w.s.connections.map (·.connectionSn) ++ serials (attempts ops) w.s.nextConnectionSn)

theorem openRequests_append (a b : List Ev) : openRequests (a ++ b) = openRequests a ++ openRequests b :=
  List.filterMap_append

theorem attempts_cons (op : Op) (ops : List Op) : attempts ops ≤ attempts (op :: ops) := by
  cases op <;> simp [attempts]

theorem attempts_other {op : Op} (h : ∀ o t, op ≠ .createConnection o t) (ops : List Op) :
    attempts (op :: ops) = attempts ops := by
  cases op with
  | createConnection o t => exact absurd rfl (h o t)
  | _ => rfl

theorem serials_prefix (k k' : Nat) (sn : UInt16) : (serials k sn).Sublist (serials (k + k') sn) := by
  induction k generalizing sn with
  | zero => exact List.nil_sublist _
  | succ k ih =>
    rw [Nat.add_right_comm]
    exact (ih _).cons_cons _

theorem History.other {op : Op} {ops : List Op} {w w1 w' : World} (h : ∀ o t, op ≠ .createConnection o t)
    (s : OtherStep w w1) (ih : History ops w1 w') : History (op :: ops) w w' := by
  obtain ⟨⟨e1, t1, r1⟩, a, b, c⟩ := s
  obtain ⟨⟨e2, t2, r2, r3⟩, d⟩ := ih
  refine ⟨⟨e1 ++ e2, by rw [t2, t1, List.append_assoc], ?_, ?_⟩, ?_⟩
  · rw [openRequests_append, r1, List.nil_append, attempts_other h, ← a]; exact r2
  · rw [openRequests_append, r1, List.nil_append, attempts_other h, ← b]; exact r3
  · rw [attempts_other h, ← a]; exact d.trans ((c.map _).append (List.Sublist.refl _))

theorem History.create {o t : ConnectionInfo} {ops : List Op} {w w1 w' : World} 
    (s : CreateStep o t w w1) (ih : History ops w1 w') : History (.createConnection o t :: ops) w w' := by
  obtain ⟨a, b, _, _, e1, t1, hc⟩ := s
  obtain ⟨⟨e2, t2, r2, r3⟩, d⟩ := ih
  obtain ⟨f1, f2, f3, _⟩ := openBody_fields w.s o t
  have req : openRequests e1 = [] ∨ openRequests e1 = [openBody w.s o t] := by
    rcases hc with ⟨_, h⟩ | ⟨_, _, _, _, _, h⟩
    · exact h
    · exact Or.inr h
  rw [a] at r2 d
  rw [b] at r3
  refine ⟨⟨e1 ++ e2, by rw [t2, t1, List.append_assoc], ?_, ?_⟩, ?_⟩
  · rw [openRequests_append, List.map_append]
    show List.Sublist _ (le 2 w.s.nextConnectionSn.toNat :: (serials (attempts ops) (w.s.nextConnectionSn + 1)).map _)
    rcases req with h | h
    · rw [h]; exact r2.cons _
    · rw [h, List.map_cons, f3]; exact r2.cons_cons _
  · rw [openRequests_append, List.map_append]
    show List.Sublist _ ((le 4 w.s.nextConnectionId.toNat, le 4 (w.s.nextConnectionId + 1).toNat) ::
      (idPairs (attempts ops) (w.s.nextConnectionId + 1 + 1)).map _)
    rcases req with h | h
    · rw [h]; exact r3.cons _
    · rw [h, List.map_cons, f1, f2]; exact r3.cons_cons _
  · show List.Sublist _ (_ ++ w.s.nextConnectionSn :: serials (attempts ops) (w.s.nextConnectionSn + 1))
    rcases hc with ⟨h, _⟩ | ⟨c, h, e, _⟩
    · rw [h] at d
      exact d.trans ((List.Sublist.refl _).append ((List.Sublist.refl _).cons _))
    · rw [h, List.map_append, List.append_assoc] at d
      rw [List.map_cons, e] at d
      exact d

theorem History.stop (ops : List Op) (w : World) : History ops w w :=
  ⟨⟨[], by simp, List.nil_sublist _, List.nil_sublist _⟩, List.sublist_append_left ..⟩

theorem history (ops : List Op) (app : ∀ op ∈ ops, OpAppends op) (w : World) : History ops w (runOps ops w).1 := by
  induction ops generalizing w with
  | nil => exact History.stop [] w
  | cons op ops ih =>
    have ih := fun w => ih (fun o ho => app o (List.mem_cons_of_mem _ ho)) w
    have step : ∀ w', History ops (op.run w).2 w' → History (op :: ops) w w' := by
      intro w' h
      by_cases hc : ∃ o t, op = .createConnection o t
      · obtain ⟨o, t, rfl⟩ := hc
        have e : (Op.run (.createConnection o t) w).2 = (Session.createConnection o t w).2 := by
          have e : Op.run (.createConnection o t) w = (Session.createConnection o t).forget w := rfl
          rw [e, forget_eq]
          rcases Session.createConnection o t w with ⟨(_ | _ | _), _⟩ <;> rfl
        rw [e] at h
        exact History.create (create_step o t w) h
      · have hn : ∀ o t, op ≠ .createConnection o t := fun o t h => hc ⟨o, t, h⟩
        exact History.other hn (other_step op (app op List.mem_cons_self) hn w) h
    rw [runOps]
    rcases hr : op.run w with ⟨(x | e | u), w'⟩
    · rw [hr] at step; exact step _ (ih w')
    · rw [hr] at step; exact step _ (ih w')
    · rw [hr] at step; exact step _ (History.stop ops w')

end Eip
