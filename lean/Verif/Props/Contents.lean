import Verif.Lemmas.Contents
/-
C117: what raw buffers show. C118: what operations on raw buffers leave alone.
-/
namespace Eip
open Spec

theorem carefulRun_append {ops : List BufOp} {op : BufOp} : ∀ {m : Mem}, MemInv m → CarefulRun (ops ++ [op]) m →
    CarefulRun ops m ∧ Careful (runBufOps ops m).2 op := by
  induction ops with
  | nil => intro m _ h; exact ⟨trivial, h.1⟩
  | cons o ops ih =>
    intro m i h
    have st := careful_step i o h.1
    have := ih st.2 h.2
    refine ⟨⟨h.1, this.1⟩, ?_⟩
    have h2 := this.2
    unfold runBufOps
    generalize o.run m = r at st h2 ⊢
    obtain ⟨res, m'⟩ := r
    cases res with
    | ok _ => exact h2
    | throw _ => exact h2
    | ub u => exact absurd rfl (st.1 u)

/-! ### C117 -/

/-- C117: after any history of a careful user, the next operation has the right result and its raw buffer then shows the
right bytes. -/
theorem c117_contents (ops : List BufOp) (op : BufOp) (h : CarefulRun (ops ++ [op]) Mem.empty) :
    Right (runBufOps ops Mem.empty).2 op (op.run (runBufOps ops Mem.empty).2) := by
  obtain ⟨h1, h2⟩ := carefulRun_append memInv_empty h
  exact right_step (careful_inv ops _ memInv_empty h1) op h2

/-- C117: a raw buffer keeps showing something until it is destroyed: in a careful user's history no raw buffer that
exists loses its memory. -/
theorem c117_always_shows (ops : List BufOp) (h : CarefulRun ops Mem.empty) (x : Nat) (sb : SBuf)
    (hx : (runBufOps ops Mem.empty).2.bufs[x]? = some (some sb)) :
    ∃ bs, shows (runBufOps ops Mem.empty).2 x = some bs ∧ bs.length = sb.data.len := by
  obtain ⟨bs, e⟩ := Option.isSome_iff_exists.1 ((careful_inv ops _ memInv_empty h).readable x sb hx)
  exact ⟨bs, by rw [shows_of hx]; exact e, Heap.contents_length e⟩

/-- A stream with three bytes read into four: three bytes and one left from the allocation; then two bytes into the same
memory. -/
example : CarefulRun ([.new, .parseStream 0 4 9 [1, 2, 3]] ++ [.fillStream 0 [7, 8]]) Mem.empty ∧
    shows (runBufOps [.new, .parseStream 0 4 9 [1, 2, 3]] Mem.empty).2 0 = some [1, 2, 3, 9] ∧
    shows (runBufOps [.new, .parseStream 0 4 9 [1, 2, 3], .fillStream 0 [7, 8]] Mem.empty).2 0 = some [7, 8, 3, 9] :=
  ⟨⟨trivial, trivial, trivial, trivial⟩, by decide +kernel, by decide +kernel⟩

/-- A buffer of two bytes filled from a buffer of exactly two bytes, and refused one of one byte. -/
example : shows (runBufOps [.alloc [1, 2], .newOn ⟨0, 0, 2⟩, .alloc [5, 6], .fill 0 ⟨1, 0, 2⟩] Mem.empty).2 0 = some [5, 6] ∧
    ((BufOp.fill 0 ⟨1, 0, 1⟩).run (runBufOps [.alloc [1, 2], .newOn ⟨0, 0, 2⟩, .alloc [5, 6]] Mem.empty).2).1
      = .throw (lengthError "Buffer too small to deserialize value") := by
  constructor <;> decide +kernel

/-! ### C118 -/

/-- C118 in full, for memory lent by the user: it changes only when the user frees it. -/
def LeavesLentMemory : Prop :=
  ∀ (ops : List BufOp) (op : BufOp), CarefulRun (ops ++ [op]) Mem.empty →
    ∀ q, Lendable (runBufOps ops Mem.empty).2 q → Keeps op q.block →
      (op.run (runBufOps ops Mem.empty).2).2.heap.contents q = (runBufOps ops Mem.empty).2.heap.contents q

/-- C118 in full, for the other raw buffers: each shows what it showed. -/
def LeavesOtherBuffers : Prop :=
  ∀ (ops : List BufOp) (op : BufOp), CarefulRun (ops ++ [op]) Mem.empty →
    ∀ y bs, target op ≠ some y → shows (runBufOps ops Mem.empty).2 y = some bs →
      shows (op.run (runBufOps ops Mem.empty).2).2 y = some bs

/-- C118 does not hold for memory lent by the user: a read of `n` bytes from a stream into a raw buffer on `n` bytes of the
user's memory overwrites that memory, whatever it held, while a read of any other number of bytes from the same stream leaves
it alone. -/
theorem c118_violated_lent (mine input : Bytes) (junk : UInt8) (hl : input.length = mine.length) :
    (runBufOps [.alloc mine, .newOn ⟨0, 0, mine.length⟩, .parseStream 0 mine.length junk input] Mem.empty).2.heap.contents
      ⟨0, 0, mine.length⟩ = some input ∧
    ∀ n, n ≠ mine.length →
      (runBufOps [.alloc mine, .newOn ⟨0, 0, mine.length⟩, .parseStream 0 n junk input] Mem.empty).2.heap.contents
        ⟨0, 0, mine.length⟩ = some mine := by
  have i0 : MemInv ⟨⟨[some mine]⟩, [some ⟨⟨0, 0, mine.length⟩, none⟩]⟩ :=
    careful_inv [.alloc mine, .newOn ⟨0, 0, mine.length⟩] _ memInv_empty
      ⟨trivial, ⟨by
        have := Heap.alloc_contents (h := ⟨[]⟩) mine
        show (Heap.contents _ _).isSome
        exact Option.isSome_of_eq_some this, fun ⟨x, _, hx, _⟩ => by simp [BufOp.run, Mem.empty, Mem.onHeap, Prog.zoom, Prog.bind_def, Prog.andThen, Heap.alloc, Prog.pure_apply] at hx⟩, trivial⟩
  have e0 : Heap.contents ⟨[some mine]⟩ ⟨0, 0, mine.length⟩ = some mine := Heap.alloc_contents (h := ⟨[]⟩) mine
  have run : ∀ n, (runBufOps [.alloc mine, .newOn ⟨0, 0, mine.length⟩, .parseStream 0 n junk input] Mem.empty).2 =
      ((BufOp.parseStream 0 n junk input).run ⟨⟨[some mine]⟩, [some ⟨⟨0, 0, mine.length⟩, none⟩]⟩).2 := by
    intro n
    have e1 : (runBufOps [.alloc mine, .newOn ⟨0, 0, mine.length⟩, .parseStream 0 n junk input] Mem.empty) =
        runBufOps [.parseStream 0 n junk input] ⟨⟨[some mine]⟩, [some ⟨⟨0, 0, mine.length⟩, none⟩]⟩ := rfl
    rw [e1]
    unfold runBufOps
    generalize (BufOp.parseStream 0 n junk input).run ⟨⟨[some mine]⟩, [some ⟨⟨0, 0, mine.length⟩, none⟩]⟩ = r
    obtain ⟨res, m'⟩ := r
    cases res <;> rfl
  constructor
  · rw [run]
    obtain ⟨h', es, ec, _⟩ := Heap.store_contents e0 (bs := input.take mine.length) (by simp; omega)
    have er : (BufOp.parseStream 0 mine.length junk input).run ⟨⟨[some mine]⟩, [some ⟨⟨0, 0, mine.length⟩, none⟩]⟩
        = (.ok (), ⟨h', [some ⟨⟨0, 0, mine.length⟩, none⟩]⟩) := by
      simp only [BufOp.run]
      rw [withBuf_eq (sb := ⟨⟨0, 0, mine.length⟩, none⟩) rfl, if_neg (by simp)]
      exact onHeap_store (m := ⟨⟨[some mine]⟩, _⟩) es
    rw [er]
    refine ec.trans (congrArg some ?_)
    rw [← hl, List.take_length, hl, List.drop_length, List.append_nil]
  · intro n hn
    rw [run]
    have := elsewhere_step i0 (.parseStream 0 n junk input) trivial (q := ⟨0, 0, mine.length⟩)
      (by show (Heap.contents _ _).isSome; exact Option.isSome_of_eq_some e0)
      (fun _ x sb hx hb => .inr (by
        cases hx
        simp only [List.getElem?_cons_zero] at hb
        cases hb
        exact fun h => nomatch h))
      (fun _ h => nomatch h)
      (fun ⟨sb, hb, en⟩ => by
        simp only [List.getElem?_cons_zero] at hb
        cases hb
        exact absurd en hn)
    exact this.trans e0

/-- C118 does not hold: neither for lent memory nor for the other raw buffers (a copy changes with the original). -/
theorem c118_violated : ¬ LeavesLentMemory ∧ ¬ LeavesOtherBuffers := by
  constructor
  · intro h
    have := h [.alloc [1], .newOn ⟨0, 0, 1⟩] (.parseStream 0 1 0 [2])
      ⟨trivial, ⟨rfl, fun ⟨x, _, hx, _⟩ => by rcases x with _ | x <;> cases hx⟩, trivial, trivial⟩ ⟨0, 0, 1⟩
      ⟨rfl, fun ⟨x, sb, hx, ha⟩ => by
        rcases x with _ | x
        · cases hx; cases ha
        · cases hx⟩
      (fun h => nomatch h)
    revert this
    decide +kernel
  · intro h
    have := h [.alloc [1], .newOn ⟨0, 0, 1⟩, .copy 0] (.fillStream 0 [2])
      ⟨trivial, ⟨rfl, fun ⟨x, _, hx, _⟩ => by rcases x with _ | x <;> cases hx⟩,
        fun sb hx => by cases hx; rfl, trivial, trivial⟩ 1 [1] (by decide) (by decide +kernel)
    revert this
    decide +kernel

/-- C118, as far as it holds, for memory lent by the user: an operation leaves it alone unless it stores through a raw
buffer that refers to bytes of it. What is missing: reads without a length and reads from a stream with just the length
the raw buffer has. -/
theorem c118_lent_partial (ops : List BufOp) (op : BufOp) (h : CarefulRun (ops ++ [op]) Mem.empty) (q : Ref)
    (hq : Lendable (runBufOps ops Mem.empty).2 q) (hk : Keeps op q.block) (hs : Spares (runBufOps ops Mem.empty).2 op q) :
    (op.run (runBufOps ops Mem.empty).2).2.heap.contents q = (runBufOps ops Mem.empty).2.heap.contents q := by
  obtain ⟨h1, h2⟩ := carefulRun_append memInv_empty h
  exact elsewhere_step (careful_inv ops _ memInv_empty h1) op h2 hq.1
    (fun _ x sb _ hx => .inr (fun ha => hq.2 ⟨x, sb, hx, ha⟩)) (fun _ => hk) hs

/-- C118, as far as it holds, for the other raw buffers: each shows what it showed, unless the operation stores through a
raw buffer that has bytes in common with it. What is missing: buffers that share memory with the one read into. -/
theorem c118_others_partial (ops : List BufOp) (op : BufOp) (h : CarefulRun (ops ++ [op]) Mem.empty) (y : Nat) (bs : Bytes)
    (hy : target op ≠ some y) (hb : shows (runBufOps ops Mem.empty).2 y = some bs)
    (hs : ∀ sb, (runBufOps ops Mem.empty).2.bufs[y]? = some (some sb) → Spares (runBufOps ops Mem.empty).2 op sb.data) :
    shows (op.run (runBufOps ops Mem.empty).2).2 y = some bs := by
  obtain ⟨h1, h2⟩ := carefulRun_append memInv_empty h
  have i := careful_inv ops _ memInv_empty h1
  generalize (runBufOps ops Mem.empty).2 = m at *
  obtain ⟨sy, hy', e⟩ := shows_eq hb
  rw [shows_of (others_step i op hy' hy)]
  refine (elsewhere_step i op h2 (q := sy.data) (Option.isSome_of_eq_some e) (fun h0 x sb ht hx => .inr (fun ha => ?_))
    (fun h0 er => ?_) (hs sy hy')).trans e
  · exact hy (by rw [ht, i.user y x sy sb hy' hx h0 ha])
  · subst er
    exact h2.2.2 ⟨y, sy, hy', h0, rfl⟩

/-- Operations that store through nothing spare everything. -/
theorem spares_of_not {m : Mem} {op : BufOp} (h : ¬ StoresThrough m op) (q : Ref) : Spares m op q := fun hs => absurd hs h

/-- C118, as far as it holds: constructing, copying, assigning, reading with a length from a buffer, serializing and
destroying raw buffers changes no byte of lent memory and nothing any other raw buffer shows. What is missing: the reads
that fill memory in place. -/
theorem c118_in_place_partial (ops : List BufOp) (op : BufOp) (h : CarefulRun (ops ++ [op]) Mem.empty)
    (hs : ¬ StoresThrough (runBufOps ops Mem.empty).2 op) :
    (∀ q, Lendable (runBufOps ops Mem.empty).2 q → Keeps op q.block →
      (op.run (runBufOps ops Mem.empty).2).2.heap.contents q = (runBufOps ops Mem.empty).2.heap.contents q) ∧
    ∀ y bs, target op ≠ some y → shows (runBufOps ops Mem.empty).2 y = some bs →
      shows (op.run (runBufOps ops Mem.empty).2).2 y = some bs :=
  ⟨fun q hq hk => c118_lent_partial ops op h q hq hk (spares_of_not hs q),
   fun y bs hy hb => c118_others_partial ops op h y bs hy hb (fun sb _ => spares_of_not hs sb.data)⟩

/-- Two raw buffers on two halves of the user's memory: filling the first leaves the second. -/
example : CarefulRun ([.alloc [1, 2], .newOn ⟨0, 0, 1⟩, .newOn ⟨0, 1, 1⟩] ++ [.fillStream 0 [9]]) Mem.empty ∧
    shows (runBufOps [.alloc [1, 2], .newOn ⟨0, 0, 1⟩, .newOn ⟨0, 1, 1⟩, .fillStream 0 [9]] Mem.empty).2 1 = some [2] ∧
    (runBufOps [.alloc [1, 2], .newOn ⟨0, 0, 1⟩, .newOn ⟨0, 1, 1⟩, .fillStream 0 [9]] Mem.empty).2.heap.contents ⟨0, 0, 2⟩
      = some [9, 2] := by
  refine ⟨⟨trivial, ⟨rfl, fun ⟨x, _, hx, _⟩ => by rcases x with _ | x <;> cases hx⟩, ⟨rfl, fun ⟨x, sb, hx, ha⟩ => ?_⟩, trivial,
    trivial⟩, by decide +kernel, by decide +kernel⟩
  rcases x with _ | x
  · cases hx; cases ha
  · cases hx

end Eip
