import Verif.Lemmas.Leaks
/-
C94: raw buffers free what they allocate.
-/
namespace Eip
open Spec

/-- C94 does not hold: a raw buffer that was filled from a stream and is then assigned another raw buffer, as
`copy_serializable` does, never frees its memory. All buffers are destroyed, the user has allocated nothing, and a block
is still allocated; whatever was read. -/
theorem c94_violated (junk : UInt8) (input : Bytes) (n : Nat) (hn : 0 < n) :
    let ops : List BufOp := [.new, .parseStream 0 n junk input, .new, .assign 0 1, .destroy 0, .destroy 1]
    CarefulRun ops Mem.empty ∧ AllDestroyed (runBufOps ops Mem.empty).2 ∧ allocations ops = 0 ∧
      (runBufOps ops Mem.empty).1 = none ∧ liveBlocks (runBufOps ops Mem.empty).2 = 1 := by
  intro ops
  have hne : n ≠ 0 := by omega
  obtain ⟨h', e, keep⟩ := Heap.store_eq (h := ⟨[some (List.replicate n junk)]⟩) (r := ⟨0, 0, n⟩) (bs := input.take n)
    (by rw [Heap.contents_isSome]; exact .inr ⟨n, ⟨_, rfl, by simp⟩, by simp⟩) (by simp; omega)
  have hl : h'.blocks.countP Option.isSome = 1 := by
    have := store_live ⟨0, 0, n⟩ (input.take n) ⟨[some (List.replicate n junk)]⟩
    rw [e] at this
    simpa using this
  have e1 : BufOp.new.run Mem.empty = (.ok (), ⟨⟨[]⟩, [some ⟨⟨0, 0, 0⟩, none⟩]⟩) := rfl
  have e2 : (BufOp.parseStream 0 n junk input).run ⟨⟨[]⟩, [some ⟨⟨0, 0, 0⟩, none⟩]⟩
      = (.ok (), ⟨h', [some ⟨⟨0, 0, n⟩, some 0⟩]⟩) := by
    show (if n ≠ 0 then _ else _ : Prog Mem Unit) _ = _
    rw [if_pos hne]
    show (match Heap.store ⟨0, 0, n⟩ (input.take n) ⟨[some (List.replicate n junk)]⟩ with
      | (r, t) => (r, (⟨t, [some ⟨⟨0, 0, n⟩, some 0⟩]⟩ : Mem))) = _
    rw [e]
  have e3 : BufOp.new.run ⟨h', [some ⟨⟨0, 0, n⟩, some 0⟩]⟩
      = (.ok (), ⟨h', [some ⟨⟨0, 0, n⟩, some 0⟩, some ⟨⟨0, 0, 0⟩, none⟩]⟩) := rfl
  have e4 : (BufOp.assign 0 1).run ⟨h', [some ⟨⟨0, 0, n⟩, some 0⟩, some ⟨⟨0, 0, 0⟩, none⟩]⟩
      = (.ok (), ⟨h', [some ⟨⟨0, 0, 0⟩, none⟩, some ⟨⟨0, 0, 0⟩, none⟩]⟩) := rfl
  have e5 : (BufOp.destroy 0).run ⟨h', [some ⟨⟨0, 0, 0⟩, none⟩, some ⟨⟨0, 0, 0⟩, none⟩]⟩
      = (.ok (), ⟨h', [none, some ⟨⟨0, 0, 0⟩, none⟩]⟩) := rfl
  have e6 : (BufOp.destroy 1).run ⟨h', [none, some ⟨⟨0, 0, 0⟩, none⟩]⟩ = (.ok (), ⟨h', [none, none]⟩) := rfl
  have run : runBufOps ops Mem.empty = (none, ⟨h', [none, none]⟩) := by
    simp only [ops, runBufOps, e1, e2, e3, e4, e5, e6]
  rw [run]
  refine ⟨?_, ?_, rfl, rfl, hl⟩
  · refine ⟨trivial, trivial, trivial, ?_, trivial, trivial, trivial⟩
    rw [e1, e2, e3]
    intro sb h
    simp only [List.getElem?_cons_succ, List.getElem?_cons_zero, Option.some.injEq] at h
    rw [← h]
  · intro x sb h
    rcases x with _ | _ | x <;> simp at h

/-- C94, as far as it holds: when a careful user never assigns to a raw buffer that has memory of its own and finally
destroys all raw buffers, exactly the memory is left that the user has allocated and not freed; there is no undefined
behaviour on the way. What is missing: assignment to a buffer that has memory of its own, which `c94_violated` shows to
leak, and the two rules of C66. -/
theorem c94_no_leak_partial (ops : List BufOp) (h : ThriftyRun ops Mem.empty)
    (hd : AllDestroyed (runBufOps ops Mem.empty).2) :
    (runBufOps ops Mem.empty).1 = none ∧
    liveBlocks (runBufOps ops Mem.empty).2 + releases ops = allocations ops := by
  have hc : ∀ ops m, ThriftyRun ops m → CarefulRun ops m := by
    intro ops
    induction ops with
    | nil => exact fun _ _ => trivial
    | cons op ops ih => exact fun m h => ⟨h.1, ih _ h.2.2⟩
  refine ⟨careful_run ops _ memInv_empty (hc ops _ h), ?_⟩
  have b := thrifty_run ops _ memInv_empty h
  have h0 : owners (runBufOps ops Mem.empty).2 = 0 := by
    unfold owners
    rw [List.countP_eq_zero]
    intro o ho
    obtain ⟨x, hx⟩ := List.mem_iff_getElem?.1 ho
    cases o with
    | none => simp [isOwner]
    | some sb => exact absurd hx (hd x sb)
  have e1 : liveBlocks Mem.empty = 0 := rfl
  have e2 : owners Mem.empty = 0 := rfl
  unfold Balance at b
  omega

/-- The same at any moment: apart from the memory the user has allocated and not freed, there is one allocated block for
each raw buffer that has memory of its own, so that nothing has been lost. Missing: as for `c94_no_leak_partial`. -/
theorem c94_accounted_partial (ops : List BufOp) (h : ThriftyRun ops Mem.empty) :
    liveBlocks (runBufOps ops Mem.empty).2 + releases ops =
      allocations ops + (runBufOps ops Mem.empty).2.bufs.countP
        (fun | some sb => sb.allocated.isSome | none => false) := by
  have b := thrifty_run ops _ memInv_empty h
  have e1 : liveBlocks Mem.empty = 0 := rfl
  have e2 : owners Mem.empty = 0 := rfl
  have e3 : owners (runBufOps ops Mem.empty).2 = (runBufOps ops Mem.empty).2.bufs.countP
      (fun | some sb => sb.allocated.isSome | none => false) := by
    unfold owners
    congr 1
  unfold Balance at b
  omega

/-- A buffer that is filled from streams of different lengths, and a copy of another buffer, while the user keeps some
memory. -/
example : ThriftyRun [.alloc [1, 2, 3], .new, .parseStream 0 2 0 [5, 6], .parseStream 0 3 0 [7], .new, .copy 1,
      .destroy 0, .destroy 1, .destroy 2] Mem.empty ∧
    (runBufOps [.alloc [1, 2, 3], .new, .parseStream 0 2 0 [5, 6], .parseStream 0 3 0 [7], .new, .copy 1,
      .destroy 0, .destroy 1, .destroy 2] Mem.empty).2
      = ⟨⟨[some [1, 2, 3], none, none]⟩, [none, none, none]⟩ := by
  refine ⟨⟨trivial, trivial, trivial, trivial, trivial, trivial, trivial, trivial, trivial, trivial, ?_, trivial,
    trivial, trivial, trivial, trivial, trivial, trivial, trivial⟩, by decide +kernel⟩
  intro sb h
  have : [some (⟨⟨2, 0, 3⟩, some 2⟩ : SBuf), some ⟨⟨0, 0, 0⟩, none⟩][1]? = some (some sb) := h
  cases this
  rfl

end Eip
