import Verif.Spec.Calls
import Verif.Lemmas.Reply
/-
Bridges between the lemmas and the forms used in the property statements.
-/
namespace Eip
open Spec

theorem pathBytes_eq {p : Path} {pad : Bool} {segs : List Segment} (h : PathIs p pad segs) :
    pathBytes p = path pad segs := by
  obtain ⟨h1, h2⟩ := h
  have hl : ((segs.map Segment.bytes).flatten).length = 2 * segs.length := by
    clear h2
    induction segs with
    | nil => rfl
    | cons s segs ih =>
      have : s.bytes.length = 2 := by cases s <;> rfl
      simp only [List.map_cons, List.flatten_cons, List.length_append, List.length_cons, ih, this]; omega
  unfold pathBytes path
  rw [h1, h2, hl, Nat.mul_div_cancel_left _ (by decide)]

theorem ItemsAre.encode {items : List CPFItem} {l : List (UInt16 × Bytes)} (h : ItemsAre items l) :
    ItemsEncode items (l.map (·.2)) ∧ cpfPairs items (l.map (·.2)) = l := by
  induction h with
  | nil => exact ⟨.nil, rfl⟩
  | @cons i x is xs hx _ ih =>
    refine ⟨.cons hx.2 ih.1, ?_⟩
    have := ih.2
    simp only [cpfPairs] at this ⊢
    simp only [List.map_cons, List.zipWith]
    rw [hx.1]
    congr 1

theorem value_cons (b : UInt8) (bs : Bytes) : value (b :: bs) = b.toNat + 256 * value bs := by
  have h : ∀ n : Nat, ((List.range n).map (fun i => (bs.getD i 0).toNat * 256 ^ (i + 1))).sum =
      256 * ((List.range n).map (fun i => (bs.getD i 0).toNat * 256 ^ i)).sum := by
    intro n
    induction n with
    | zero => rfl
    | succ n ih =>
      simp only [List.range_succ, List.map_append, List.sum_append, List.map_cons, List.map_nil, List.sum_cons,
        List.sum_nil, ih]
      rw [Nat.pow_succ]
      simp only [Nat.mul_add, Nat.add_zero]
      congr 1
      rw [Nat.mul_comm 256, Nat.mul_assoc]
  simp only [value, List.length_cons, List.range_succ_eq_map, List.map_cons, List.map_map, List.sum_cons]
  simp only [List.getD_cons_zero, Nat.pow_zero, Nat.mul_one]
  congr 1
  rw [← h bs.length]
  rfl

theorem value_eq_leVal (bs : Bytes) : value bs = leVal bs := by
  induction bs with
  | nil => rfl
  | cons b bs ih => rw [value_cons, ih, leVal]

end Eip
