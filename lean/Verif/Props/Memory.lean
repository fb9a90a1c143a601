import Verif.Lemmas.Memory
/-
C66: raw buffers own or borrow memory safely.
-/
namespace Eip
open Spec

/-! ### C66 -/

/-- C66 does not hold: a raw buffer filled from a stream that is then copied is freed twice, for every length and every
content. -/
theorem c66_violated (junk : UInt8) (input : Bytes) (n : Nat) (hn : 0 < n) :
    (runBufOps [.new, .parseStream 0 n junk input, .copy 0, .destroy 0, .destroy 1] Mem.empty).1 = some .doubleFree := by
  have hne : n ≠ 0 := by omega
  obtain ⟨h', e, keep⟩ := Heap.store_eq (h := ⟨[some (List.replicate n junk)]⟩) (r := ⟨0, 0, n⟩) (bs := input.take n)
    (by rw [Heap.contents_isSome]; exact .inr ⟨n, ⟨_, rfl, by simp⟩, by simp⟩) (by simp; omega)
  obtain ⟨bs, hb, _⟩ := keep 0 n ⟨_, rfl, by simp⟩
  have hl : 0 < h'.blocks.length := (List.getElem?_eq_some_iff.1 hb).1
  have e1 : BufOp.new.run Mem.empty = (.ok (), ⟨⟨[]⟩, [some ⟨⟨0, 0, 0⟩, none⟩]⟩) := rfl
  have e2 : (BufOp.parseStream 0 n junk input).run ⟨⟨[]⟩, [some ⟨⟨0, 0, 0⟩, none⟩]⟩
      = (.ok (), ⟨h', [some ⟨⟨0, 0, n⟩, some 0⟩]⟩) := by
    show (if n ≠ 0 then _ else _ : Prog Mem Unit) _ = _
    rw [if_pos hne]
    show (match Heap.store ⟨0, 0, n⟩ (input.take n) ⟨[some (List.replicate n junk)]⟩ with
      | (r, t) => (r, (⟨t, [some ⟨⟨0, 0, n⟩, some 0⟩]⟩ : Mem))) = _
    rw [e]
  have e3 : (BufOp.copy 0).run ⟨h', [some ⟨⟨0, 0, n⟩, some 0⟩]⟩
      = (.ok (), ⟨h', [some ⟨⟨0, 0, n⟩, some 0⟩, some ⟨⟨0, 0, n⟩, some 0⟩]⟩) := rfl
  have f1 : Heap.free 0 h' = (.ok (), ⟨h'.blocks.set 0 none⟩) := by unfold Heap.free; rw [hb]
  have f2 : Heap.free 0 ⟨h'.blocks.set 0 none⟩ = (.ub .doubleFree, ⟨h'.blocks.set 0 none⟩) := by
    unfold Heap.free; simp [hl]
  have e4 : (BufOp.destroy 0).run ⟨h', [some ⟨⟨0, 0, n⟩, some 0⟩, some ⟨⟨0, 0, n⟩, some 0⟩]⟩
      = (.ok (), ⟨⟨h'.blocks.set 0 none⟩, [none, some ⟨⟨0, 0, n⟩, some 0⟩]⟩) := by
    simp [BufOp.run, Mem.withBuf, Mem.deleteAllocated, Mem.onHeap, Prog.zoom, f1, Mem.setBuf, Prog.modify, Prog.bind_def,
      Prog.andThen, Prog.pure_apply]
  have e5 : ((BufOp.destroy 1).run ⟨⟨h'.blocks.set 0 none⟩, [none, some ⟨⟨0, 0, n⟩, some 0⟩]⟩).1
      = .ub .doubleFree := by
    simp [BufOp.run, Mem.withBuf, Mem.deleteAllocated, Mem.onHeap, Prog.zoom, f2, Prog.bind_def,
      Prog.andThen]
  simp only [runBufOps, e1, e2, e3, e4]
  generalize (BufOp.destroy 1).run ⟨⟨h'.blocks.set 0 none⟩, [none, some ⟨⟨0, 0, n⟩, some 0⟩]⟩ = r at e5 ⊢
  obtain ⟨res, m'⟩ := r
  cases e5
  rfl

/-- C66 does not hold even without copies: when a raw buffer that has allocated memory is read from a `BufferReader` with
too few bytes, `length_error` is thrown and `data_` still refers to the memory that has just been freed. Here four bytes
come from a stream, then two are asked of an empty buffer, then the buffer is serialized. -/
theorem c66_violated_failed_read :
    (runBufOps [.new, .parseStream 0 4 0 [1, 2, 3, 4], .parse 0 2 Ref.null, .read 0] Mem.empty).1
      = some .danglingAccess ∧
    ((BufOp.parse 0 2 Ref.null).run
      (runBufOps [.new, .parseStream 0 4 0 [1, 2, 3, 4]] Mem.empty).2).1
      = .throw (lengthError "Buffer too small to deserialize value") := by
  constructor <;> decide +kernel

/-- C66, as far as it holds: a careful user — who besides the usual obligations neither copies a raw buffer that has
allocated memory nor lets such a buffer read from too short a `BufferReader` — never causes a double free or an access to
freed memory. What is missing: the two extra obligations, which `c66_violated` and `c66_violated_failed_read` show to be
necessary. -/
theorem c66_careful_partial (ops : List BufOp) (h : CarefulRun ops Mem.empty) : (runBufOps ops Mem.empty).1 = none :=
  careful_run ops _ memInv_empty h

/-- C66, as far as it holds: without sized reads from streams, any correct user is safe, whatever is copied. -/
theorem c66_no_streams_partial (ops : List BufOp) (hs : ∀ op ∈ ops, NoStreamParse op) (h : CorrectRun ops Mem.empty) :
    (runBufOps ops Mem.empty).1 = none :=
  careful_run ops _ memInv_empty (correct_carefulRun ops _ (fun b ⟨x, _, hx, _⟩ => by simp [Mem.empty] at hx) hs h)

/-- Two raw buffers on the same memory, one a copy of the other, both destroyed before the memory is freed: what the
library's own decoding does. -/
example : CorrectRun [.alloc [1, 2, 3], .new, .parse 0 2 ⟨0, 1, 2⟩, .copy 0, .read 1, .destroy 0, .read 1, .destroy 1,
    .release 0] Mem.empty ∧
    (runBufOps [.alloc [1, 2, 3], .new, .parse 0 2 ⟨0, 1, 2⟩, .copy 0, .read 1, .destroy 0, .read 1, .destroy 1,
      .release 0] Mem.empty) = (none, ⟨⟨[none]⟩, [none, none]⟩) := by
  refine ⟨⟨trivial, trivial, rfl, trivial, trivial, trivial, trivial, trivial, ⟨⟨[1, 2, 3], rfl⟩, ?_, ?_⟩, trivial⟩, by decide +kernel⟩
  · rintro ⟨x, sb, hx, _⟩
    have : ([none, none] : List (Option SBuf))[x]? = some (some sb) := hx
    rcases x with _ | _ | x <;> simp at this
  · rintro ⟨x, sb, hx, _⟩
    have : ([none, none] : List (Option SBuf))[x]? = some (some sb) := hx
    rcases x with _ | _ | x <;> simp at this

/-- A careful run with stream reads. -/
example : CarefulRun [.new, .parseStream 0 2 0 [5, 6], .read 0, .parseStream 0 3 0 [7], .fillStream 0 [8, 9], .read 0,
    .destroy 0] Mem.empty := ⟨trivial, trivial, trivial, trivial, trivial, trivial, trivial, trivial⟩

end Eip
