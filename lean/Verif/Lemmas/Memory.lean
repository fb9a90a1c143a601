import Verif.Spec.Memory
import Verif.Lemmas.Streams
/-
Raw buffers in memory: the invariant behind C66.
-/
namespace Eip
open Spec

/-- Block `b` is live and has `n` bytes. -/
def Heap.Size (h : Heap) (b n : Nat) : Prop := ∃ bs, h.blocks[b]? = some (some bs) ∧ bs.length = n

theorem Heap.contents_isSome (h : Heap) (r : Ref) :
    (h.contents r).isSome ↔ r.len = 0 ∨ ∃ n, h.Size r.block n ∧ r.off + r.len ≤ n := by
  unfold Heap.contents
  split
  · next e => simp [e]
  · next e =>
    split
    · next bs hb =>
      split
      · next hl => exact ⟨fun _ => .inr ⟨_, ⟨bs, hb, rfl⟩, hl⟩, fun _ => rfl⟩
      · next hl =>
        refine ⟨fun h => (nomatch h), fun h => ?_⟩
        rcases h with h | ⟨n, ⟨bs', hb', rfl⟩, hn⟩
        · exact absurd h e
        · rw [hb] at hb'; cases hb'; exact absurd hn hl
    · next hb =>
      refine ⟨fun h => (nomatch h), fun h => ?_⟩
      rcases h with h | ⟨n, ⟨bs', hb', _⟩, _⟩
      · exact absurd h e
      · exact absurd hb' (hb bs')

/-- Heaps with the same live blocks of the same sizes, except for `b`. -/
def Heap.SameBut (h h' : Heap) (b : Nat) : Prop := ∀ c n, c ≠ b → h.Size c n → h'.Size c n

theorem Heap.load_eq {h : Heap} {r : Ref} (hr : (h.contents r).isSome) : ∃ bs, Heap.load r h = (.ok bs, h) ∧ bs.length = r.len := by
  unfold Heap.load
  cases hc : h.contents r with
  | none => rw [hc] at hr; cases hr
  | some bs =>
    refine ⟨bs, rfl, ?_⟩
    unfold Heap.contents at hc
    split at hc
    · next e => cases hc; exact e.symm
    · split at hc
      · split at hc
        · cases hc; simp; omega
        · cases hc
      · cases hc

theorem Heap.store_eq {h : Heap} {r : Ref} (hr : (h.contents r).isSome) {bs : Bytes} (hl : bs.length ≤ r.len) :
    ∃ h', Heap.store r bs h = (.ok (), h') ∧ ∀ c n, h.Size c n → h'.Size c n := by
  unfold Heap.store
  split
  · exact ⟨h, rfl, fun _ _ x => x⟩
  · next hne =>
    rcases (Heap.contents_isSome h r).1 hr with h0 | ⟨n, ⟨old, hb, rfl⟩, hn⟩
    · cases bs with
      | nil => exact absurd rfl hne
      | cons b bs => simp at hl; omega
    · rw [hb]
      simp only
      rw [if_pos (by omega)]
      refine ⟨_, rfl, fun c n hc => ?_⟩
      obtain ⟨bs', hb', rfl⟩ := hc
      by_cases e : r.block = c
      · subst e
        rw [hb] at hb'; cases hb'
        have hlt : r.block < h.blocks.length := by
          have := List.getElem?_eq_some_iff.1 hb; exact this.1
        refine ⟨old.take r.off ++ bs ++ old.drop (r.off + bs.length), ?_, ?_⟩
        · simp [hlt]
        · simp; omega
      · exact ⟨bs', by simp [e, hb'], rfl⟩

theorem Heap.alloc_size (h : Heap) (bs : Bytes) :
    (∀ c n, h.Size c n → (Heap.alloc bs h).2.Size c n) ∧ (Heap.alloc bs h).2.Size h.blocks.length bs.length := by
  constructor
  · intro c n ⟨bs', hb, e⟩
    have := List.getElem?_eq_some_iff.1 hb
    exact ⟨bs', by simp only [Heap.alloc]; rw [List.getElem?_append_left this.1]; exact hb, e⟩
  · exact ⟨bs, by simp [Heap.alloc], rfl⟩

theorem Heap.free_eq {h : Heap} {b n : Nat} (hb : h.Size b n) :
    ∃ h', Heap.free b h = (.ok (), h') ∧ h.SameBut h' b := by
  obtain ⟨bs, hb, _⟩ := hb
  unfold Heap.free
  rw [hb]
  refine ⟨_, rfl, fun c n hc hs => ?_⟩
  obtain ⟨bs', hb', e⟩ := hs
  exact ⟨bs', by simp only; rw [List.getElem?_set_ne (Ne.symm hc)]; exact hb', e⟩

theorem Heap.Size.lt {h : Heap} {b n : Nat} (hs : h.Size b n) : b < h.blocks.length := by
  obtain ⟨bs, hb, _⟩ := hs
  exact (List.getElem?_eq_some_iff.1 hb).1

/-- The invariant: every existing raw buffer refers to live memory, its allocation is live, and no other raw buffer
owns or refers to it. -/
structure MemInv (m : Mem) : Prop where
  readable : ∀ (x : Nat) (sb : SBuf), m.bufs[x]? = some (some sb) → Readable m sb.data
  live : ∀ (x : Nat) (sb : SBuf) (b : Nat), m.bufs[x]? = some (some sb) → sb.allocated = some b → ∃ n, m.heap.Size b n
  owner : ∀ (x y : Nat) (sx sy : SBuf) (b : Nat), m.bufs[x]? = some (some sx) → m.bufs[y]? = some (some sy) →
    sx.allocated = some b → sy.allocated = some b → x = y
  user : ∀ (x y : Nat) (sx sy : SBuf), m.bufs[x]? = some (some sx) → m.bufs[y]? = some (some sy) →
    sx.data.len ≠ 0 → sy.allocated = some sx.data.block → x = y

theorem memInv_empty : MemInv Mem.empty :=
  ⟨fun _ _ h => by simp [Mem.empty] at h, fun _ _ _ h => by simp [Mem.empty] at h,
   fun _ _ _ _ _ h => by simp [Mem.empty] at h, fun _ _ _ _ h => by simp [Mem.empty] at h⟩

theorem readable_mono {m m' : Mem} {r : Ref} (h : Readable m r)
    (keep : ∀ n, r.len ≠ 0 → m.heap.Size r.block n → m'.heap.Size r.block n) : Readable m' r := by
  rcases (Heap.contents_isSome _ _).1 h with h0 | ⟨n, hs, hn⟩
  · exact (Heap.contents_isSome _ _).2 (.inl h0)
  · by_cases h0 : r.len = 0
    · exact (Heap.contents_isSome _ _).2 (.inl h0)
    · exact (Heap.contents_isSome _ _).2 (.inr ⟨n, keep n h0 hs, hn⟩)

/-- A heap change that keeps all live blocks keeps the invariant. -/
theorem MemInv.heap {m : Mem} (i : MemInv m) {h : Heap} (keep : ∀ c n, m.heap.Size c n → h.Size c n) :
    MemInv { m with heap := h } where
  readable x sb hx := readable_mono (i.readable x sb hx) (fun n _ => keep _ n)
  live x sb b hx hb := by
    obtain ⟨n, hs⟩ := i.live x sb b hx hb
    exact ⟨n, keep _ _ hs⟩
  owner := i.owner
  user := i.user

/-- A heap change that keeps all live blocks but one that nobody owns or refers to. -/
theorem MemInv.freed {m : Mem} (i : MemInv m) {h : Heap} {b : Nat} (keep : m.heap.SameBut h b)
    (no : ¬ Owned m b) (nu : ¬ Used m b) : MemInv { m with heap := h } where
  readable x sb hx := readable_mono (i.readable x sb hx) (fun n hl hs =>
    keep _ n (fun e => nu ⟨x, sb, hx, hl, e⟩) hs)
  live x sb c hx hc := by
    obtain ⟨n, hs⟩ := i.live x sb c hx hc
    exact ⟨n, keep _ _ (fun e => no ⟨x, sb, hx, e ▸ hc⟩) hs⟩
  owner := i.owner
  user := i.user

theorem get_set {l : List (Option SBuf)} {x y : Nat} {v : Option SBuf} {sb : SBuf}
    (h : (l.set x v)[y]? = some (some sb)) : (y = x ∧ v = some sb) ∨ (y ≠ x ∧ l[y]? = some (some sb)) := by
  by_cases e : x = y
  · subst e
    rw [List.getElem?_set_self'] at h
    cases hl : l[x]? with
    | none => rw [hl] at h; cases h
    | some o => rw [hl] at h; simp at h; exact .inl ⟨rfl, h⟩
  · rw [List.getElem?_set_ne e] at h
    exact .inr ⟨fun e' => e e'.symm, h⟩

theorem get_push {l : List (Option SBuf)} {y : Nat} {v sb : SBuf}
    (h : (l ++ [some v])[y]? = some (some sb)) : (y = l.length ∧ v = sb) ∨ (y < l.length ∧ l[y]? = some (some sb)) := by
  by_cases e : y < l.length
  · rw [List.getElem?_append_left e] at h; exact .inr ⟨e, h⟩
  · rw [List.getElem?_append_right (by omega)] at h
    cases hk : y - l.length with
    | zero => rw [hk] at h; simp at h; exact .inl ⟨by omega, h⟩
    | succ k => rw [hk] at h; simp at h

/-- Give object `x` members without allocation and with data that nobody owns (unless itself before). -/
theorem MemInv.set_borrowed {m : Mem} (i : MemInv m) {x : Nat} {sb : SBuf} (hr : Readable m sb.data)
    (hn : sb.allocated = none)
    (ho : ∀ (y : Nat) (sy : SBuf), y ≠ x → m.bufs[y]? = some (some sy) → sb.data.len ≠ 0 → sy.allocated ≠ some sb.data.block) :
    MemInv { m with bufs := m.bufs.set x (some sb) } where
  readable y sy hy := by
    rcases get_set hy with ⟨rfl, e⟩ | ⟨_, e⟩
    · cases e; exact hr
    · exact i.readable y sy e
  live y sy b hy hb := by
    rcases get_set hy with ⟨rfl, e⟩ | ⟨_, e⟩
    · cases e; rw [hn] at hb; cases hb
    · exact i.live y sy b e hb
  owner y z sy sz b hy hz hby hbz := by
    rcases get_set hy with ⟨rfl, e⟩ | ⟨_, e⟩
    · cases e; rw [hn] at hby; cases hby
    · rcases get_set hz with ⟨rfl, e'⟩ | ⟨_, e'⟩
      · cases e'; rw [hn] at hbz; cases hbz
      · exact i.owner y z sy sz b e e' hby hbz
  user y z sy sz hy hz hl hb := by
    rcases get_set hz with ⟨rfl, e'⟩ | ⟨hne, e'⟩
    · cases e'; rw [hn] at hb; cases hb
    · rcases get_set hy with ⟨rfl, e⟩ | ⟨_, e⟩
      · cases e; exact absurd hb (ho z sz hne e' hl)
      · exact i.user y z sy sz e e' hl hb

/-- Destroying an object keeps the invariant. -/
theorem MemInv.unset {m : Mem} (i : MemInv m) {x : Nat} : MemInv { m with bufs := m.bufs.set x none } where
  readable y sy hy := by
    rcases get_set hy with ⟨_, e⟩ | ⟨_, e⟩
    · cases e
    · exact i.readable y sy e
  live y sy b hy hb := by
    rcases get_set hy with ⟨_, e⟩ | ⟨_, e⟩
    · cases e
    · exact i.live y sy b e hb
  owner y z sy sz b hy hz := by
    rcases get_set hy with ⟨_, e⟩ | ⟨_, e⟩
    · cases e
    · rcases get_set hz with ⟨_, e'⟩ | ⟨_, e'⟩
      · cases e'
      · exact i.owner y z sy sz b e e'
  user y z sy sz hy hz := by
    rcases get_set hy with ⟨_, e⟩ | ⟨_, e⟩
    · cases e
    · rcases get_set hz with ⟨_, e'⟩ | ⟨_, e'⟩
      · cases e'
      · exact i.user y z sy sz e e'

/-- Constructing an object without allocation. -/
theorem MemInv.push {m : Mem} (i : MemInv m) {sb : SBuf} (hr : Readable m sb.data) (hn : sb.allocated = none)
    (ho : sb.data.len ≠ 0 → ¬ Owned m sb.data.block) : MemInv { m with bufs := m.bufs ++ [some sb] } where
  readable y sy hy := by
    rcases get_push hy with ⟨_, rfl⟩ | ⟨_, e⟩
    · exact hr
    · exact i.readable y sy e
  live y sy b hy hb := by
    rcases get_push hy with ⟨_, rfl⟩ | ⟨_, e⟩
    · rw [hn] at hb; cases hb
    · exact i.live y sy b e hb
  owner y z sy sz b hy hz hby hbz := by
    rcases get_push hy with ⟨_, rfl⟩ | ⟨_, e⟩
    · rw [hn] at hby; cases hby
    · rcases get_push hz with ⟨_, rfl⟩ | ⟨_, e'⟩
      · rw [hn] at hbz; cases hbz
      · exact i.owner y z sy sz b e e' hby hbz
  user y z sy sz hy hz hl hb := by
    rcases get_push hz with ⟨_, rfl⟩ | ⟨_, e'⟩
    · rw [hn] at hb; cases hb
    · rcases get_push hy with ⟨_, rfl⟩ | ⟨_, e⟩
      · exact absurd ⟨z, sz, e', hb⟩ (ho hl)
      · exact i.user y z sy sz e e' hl hb

/-- `deleteAllocatedBuffer` on `x`: afterwards its `data_` may dangle, so that the invariant holds for the others. -/
theorem deleteAllocated_run {m : Mem} (i : MemInv m) {x : Nat} {sb : SBuf} (hx : m.bufs[x]? = some (some sb)) :
    ∃ m', Mem.deleteAllocated x sb m = (.ok { sb with allocated := none }, m') ∧
      m'.bufs = m.bufs.set x (some { sb with allocated := none }) ∧
      MemInv { m' with bufs := m'.bufs.set x none } ∧
      (∀ r, Readable m r → (r.len ≠ 0 → sb.allocated ≠ some r.block) → Readable m' r) ∧
      (sb.allocated = none → m' = m) := by
  unfold Mem.deleteAllocated
  cases ha : sb.allocated with
  | none =>
    have hs : sb = { sb with allocated := none } := by cases sb; cases ha; rfl
    have hb : m.bufs.set x (some { sb with allocated := none }) = m.bufs := by
      rw [← hs]
      apply List.ext_getElem?
      intro k
      by_cases e : x = k
      · subst e; rw [List.getElem?_set_self', hx]; rfl
      · rw [List.getElem?_set_ne e]
    refine ⟨m, ?_, hb.symm, i.unset, fun r hr _ => hr, fun _ => rfl⟩
    show (Res.ok sb, m) = _
    rw [← hs]
  | some b =>
    obtain ⟨n, hs⟩ := i.live x sb b hx ha
    obtain ⟨h', e, keep⟩ := Heap.free_eq hs
    refine ⟨⟨h', m.bufs.set x (some { sb with allocated := none })⟩, ?_, rfl, ?_, ?_, fun h => nomatch h⟩
    · simp [Mem.onHeap, Prog.zoom, Mem.setBuf, Prog.modify, Prog.bind_def, Prog.andThen, e, Prog.pure_apply]
    · have := (i.unset (x := x)).freed (h := h') (b := b) keep
        (fun ⟨y, sy, hy, hb⟩ => by
          rcases get_set hy with ⟨_, e⟩ | ⟨hne, e⟩
          · cases e
          · exact hne (i.owner y x sy sb b e hx hb ha))
        (fun ⟨y, sy, hy, hl, hb⟩ => by
          rcases get_set hy with ⟨_, e⟩ | ⟨hne, e⟩
          · cases e
          · exact hne (i.user y x sy sb e hx hl (hb ▸ ha)))
      simpa using this
    · intro r hr hne
      exact readable_mono hr (fun n hl hs => keep _ _ (fun e => hne hl (e ▸ rfl)) hs)

/-- The outcome of a step: no undefined behaviour, and the invariant holds again. -/
def StepOk (r : Res Unit × Mem) : Prop := (∀ u, r.1 ≠ .ub u) ∧ MemInv r.2

theorem withBuf_ok {m : Mem} (i : MemInv m) {x : Nat} {f : SBuf → Prog Mem Unit}
    (h : ∀ sb, m.bufs[x]? = some (some sb) → StepOk (f sb m)) : StepOk (Mem.withBuf x f m) := by
  unfold Mem.withBuf
  split
  · next sb e => exact h sb e
  · exact ⟨fun _ h => (nomatch h), i⟩

/-- Members without allocation are stored in `x` when the invariant holds for the others. -/
theorem set_after {m : Mem} {x : Nat} (i : MemInv { m with bufs := m.bufs.set x none }) {sb : SBuf} (hr : Readable m sb.data)
    (hn : sb.allocated = none)
    (ho : ∀ (y : Nat) (sy : SBuf), y ≠ x → m.bufs[y]? = some (some sy) → sb.data.len ≠ 0 → sy.allocated ≠ some sb.data.block) :
    MemInv { m with bufs := m.bufs.set x (some sb) } := by
  have := i.set_borrowed (x := x) (sb := sb) hr hn (fun y sy hne hy => by
    rcases get_set hy with ⟨_, e⟩ | ⟨_, e⟩
    · cases e
    · exact ho y sy hne e)
  simpa using this

/-- Memory allocated for `x` when the invariant holds for the others. -/
theorem own_after {m : Mem} {x n : Nat} (i : MemInv { m with bufs := m.bufs.set x none }) (bs : Bytes) (hl : bs.length = n) :
    MemInv ⟨(Heap.alloc bs m.heap).2, m.bufs.set x (some ⟨⟨m.heap.blocks.length, 0, n⟩, some m.heap.blocks.length⟩)⟩ := by
  obtain ⟨keep, hs⟩ := Heap.alloc_size m.heap bs
  have i' := i.heap (h := (Heap.alloc bs m.heap).2) keep
  have old : ∀ (y : Nat) (sy : SBuf), y ≠ x → m.bufs[y]? = some (some sy) →
      (m.bufs.set x none)[y]? = some (some sy) := by
    intro y sy hne e
    rw [List.getElem?_set_ne (Ne.symm hne)]; exact e
  have fresh : ∀ (y : Nat) (sy : SBuf), y ≠ x → m.bufs[y]? = some (some sy) →
      sy.allocated ≠ some m.heap.blocks.length := by
    intro y sy hne e ha
    obtain ⟨k, hk⟩ := i.live y sy _ (old y sy hne e) ha
    exact absurd hk.lt (Nat.lt_irrefl _)
  have fresh' : ∀ (y : Nat) (sy : SBuf), y ≠ x → m.bufs[y]? = some (some sy) → sy.data.len ≠ 0 →
      sy.data.block ≠ m.heap.blocks.length := by
    intro y sy hne e hl ha
    rcases (Heap.contents_isSome _ _).1 (i.readable y sy (old y sy hne e)) with h0 | ⟨k, hk, _⟩
    · exact hl h0
    · exact absurd hk.lt (by simp [ha])
  constructor
  · intro y sy hy
    rcases get_set hy with ⟨rfl, e⟩ | ⟨hne, e⟩
    · cases e
      exact (Heap.contents_isSome _ _).2 (.inr ⟨bs.length, hs, by simp [hl]⟩)
    · exact i'.readable y sy (old y sy hne e)
  · intro y sy b hy hb
    rcases get_set hy with ⟨rfl, e⟩ | ⟨hne, e⟩
    · cases e; cases hb
      exact ⟨_, hs⟩
    · exact i'.live y sy b (old y sy hne e) hb
  · intro y z sy sz b hy hz hby hbz
    rcases get_set hy with ⟨rfl, e⟩ | ⟨hne, e⟩
    · rcases get_set hz with ⟨rfl, e'⟩ | ⟨hne', e'⟩
      · rfl
      · cases e; cases hby; exact absurd hbz (fresh z sz hne' e')
    · rcases get_set hz with ⟨rfl, e'⟩ | ⟨hne', e'⟩
      · cases e'; cases hbz; exact absurd hby (fresh y sy hne e)
      · exact i'.owner y z sy sz b (old y sy hne e) (old z sz hne' e') hby hbz
  · intro y z sy sz hy hz hl' hb
    rcases get_set hy with ⟨rfl, e⟩ | ⟨hne, e⟩
    · rcases get_set hz with ⟨rfl, e'⟩ | ⟨hne', e'⟩
      · rfl
      · cases e; exact absurd hb (fresh z sz hne' e')
    · rcases get_set hz with ⟨rfl, e'⟩ | ⟨hne', e'⟩
      · cases e'
        have : sy.data.block = m.heap.blocks.length := by simpa using hb.symm
        exact absurd this (fresh' y sy hne e hl')
      · exact i'.user y z sy sz (old y sy hne e) (old z sz hne' e') hl' hb

theorem others_get {m m' : Mem} {x y : Nat} {v sy : SBuf} (hb : m'.bufs = m.bufs.set x (some v)) (hne : y ≠ x)
    (h : m'.bufs[y]? = some (some sy)) : m.bufs[y]? = some (some sy) := by
  rw [hb, List.getElem?_set_ne (Ne.symm hne)] at h; exact h

theorem store_ok {m : Mem} (i : MemInv m) {r : Ref} (hr : Readable m r) {bs : Bytes} (hl : bs.length ≤ r.len) :
    StepOk (Mem.onHeap (Heap.store r bs) m) := by
  obtain ⟨h', e, keep⟩ := Heap.store_eq hr hl
  simp only [Mem.onHeap, Prog.zoom, e]
  exact ⟨fun _ h => (nomatch h), i.heap keep⟩

theorem readable_prefix {m : Mem} {r : Ref} {n : Nat} (h : Readable m r) (hn : n ≤ r.len) :
    Readable m ⟨r.block, r.off, n⟩ := by
  rcases (Heap.contents_isSome _ _).1 h with h0 | ⟨k, hk, hl⟩
  · exact (Heap.contents_isSome _ _).2 (.inl (by simp; omega))
  · exact (Heap.contents_isSome _ _).2 (.inr ⟨k, hk, by simp; omega⟩)

/-- A careful step has no undefined behaviour and keeps the invariant. -/
theorem careful_step {m : Mem} (i : MemInv m) (op : BufOp) (hc : Careful m op) : StepOk (op.run m) := by
  cases op with
  | alloc bs => exact ⟨fun _ h => (nomatch h), i.heap (Heap.alloc_size m.heap bs).1⟩
  | release b =>
    obtain ⟨⟨bs, hb⟩, no, nu⟩ := hc
    obtain ⟨h', e, keep⟩ := Heap.free_eq ⟨bs, hb, rfl⟩
    simp only [BufOp.run, Mem.onHeap, Prog.zoom, e]
    exact ⟨fun _ h => (nomatch h), i.freed keep no nu⟩
  | new => exact ⟨fun _ h => (nomatch h), i.push rfl rfl (fun h => absurd rfl h)⟩
  | newOn r => exact ⟨fun _ h => (nomatch h), i.push hc.1 rfl (fun _ => hc.2)⟩
  | copy x =>
    refine withBuf_ok i (fun sb hx => ⟨fun _ h => (nomatch h), ?_⟩)
    have hn := hc sb hx
    refine i.push (i.readable x sb hx) hn (fun hl ⟨y, sy, hy, hb⟩ => ?_)
    have := i.user x y sb sy hx hy hl hb
    subst this
    rw [hx] at hy; cases hy
    rw [hn] at hb; cases hb
  | assign x y =>
    refine withBuf_ok i (fun src hy => withBuf_ok i (fun sb hx => ⟨fun _ h => (nomatch h), ?_⟩))
    have hn := hc src hy
    refine i.set_borrowed (i.readable y src hy) hn (fun z sz _ hz hl hb => ?_)
    have := i.user y z src sz hy hz hl hb
    subst this
    rw [hy] at hz; cases hz
    rw [hn] at hb; cases hb
  | assignRef x r =>
    refine withBuf_ok i (fun sb hx => ⟨fun _ h => (nomatch h), ?_⟩)
    show MemInv { m with bufs := m.bufs.set x (some { sb with data := r }) }
    constructor
    · intro y sy hy
      rcases get_set hy with ⟨rfl, e⟩ | ⟨_, e⟩
      · cases e; exact hc.1
      · exact i.readable y sy e
    · intro y sy b hy hb
      rcases get_set hy with ⟨rfl, e⟩ | ⟨_, e⟩
      · cases e; exact i.live _ sb b hx hb
      · exact i.live y sy b e hb
    · intro y z sy sz b hy hz hby hbz
      rcases get_set hy with ⟨rfl, e⟩ | ⟨_, e⟩
      · rcases get_set hz with ⟨rfl, e'⟩ | ⟨_, e'⟩
        · rfl
        · cases e; exact i.owner _ z sb sz b hx e' hby hbz
      · rcases get_set hz with ⟨rfl, e'⟩ | ⟨_, e'⟩
        · cases e'; exact i.owner y _ sy sb b e hx hby hbz
        · exact i.owner y z sy sz b e e' hby hbz
    · intro y z sy sz hy hz hl hb
      rcases get_set hy with ⟨rfl, e⟩ | ⟨_, e⟩
      · cases e
        rcases get_set hz with ⟨rfl, e'⟩ | ⟨_, e'⟩
        · rfl
        · exact absurd ⟨z, sz, e', hb⟩ hc.2
      · rcases get_set hz with ⟨rfl, e'⟩ | ⟨_, e'⟩
        · cases e'; exact i.user y _ sy sb e hx hl hb
        · exact i.user y z sy sz e e' hl hb
  | setData x r =>
    refine withBuf_ok i (fun sb hx => ?_)
    obtain ⟨m', e, hb, i', keep, _⟩ := deleteAllocated_run i hx
    rw [Prog.bind_ok e]
    refine ⟨fun _ h => (nomatch h), set_after i' (keep r hc.1 (fun _ h => hc.2 ⟨x, sb, hx, h⟩)) rfl (fun y sy hne hy _ ha => ?_)⟩
    exact hc.2 ⟨y, sy, others_get hb hne hy, ha⟩
  | parse x n r =>
    obtain ⟨hl, hn⟩ := hc
    refine withBuf_ok i (fun sb hx => ?_)
    obtain ⟨m', e, hb, i', keep, same⟩ := deleteAllocated_run i hx
    rw [Prog.bind_ok e]
    split
    · next hlt =>
      rcases hn with hn | hn
      · omega
      · rw [same (hn sb hx)]
        exact ⟨fun _ h => (nomatch h), i⟩
    · next hge =>
      refine ⟨fun _ h => (nomatch h), set_after i' (readable_prefix (keep r hl.1 (fun _ h => hl.2 ⟨x, sb, hx, h⟩)) (by omega)) rfl
        (fun y sy hne hy _ ha => ?_)⟩
      exact hl.2 ⟨y, sy, others_get hb hne hy, ha⟩
  | parseStream x n junk input =>
    refine withBuf_ok i (fun sb hx => ?_)
    split
    · obtain ⟨m', e, hb, i', keep, same⟩ := deleteAllocated_run i hx
      rw [Prog.bind_ok e]
      have i2 := own_after (x := x) (n := n) i' (List.replicate n junk) (by simp)
      exact store_ok i2 (i2.readable x ⟨⟨m'.heap.blocks.length, 0, n⟩, some m'.heap.blocks.length⟩ (by
        simp only
        have hlt : x < m'.bufs.length := by
          rw [hb, List.length_set]; exact (List.getElem?_eq_some_iff.1 hx).1
        simp [hlt])) (by simp; omega)
    · next he =>
      exact store_ok i (i.readable x sb hx) (by simp; omega)
  | fill x r =>
    refine withBuf_ok i (fun sb hx => ?_)
    split
    · exact ⟨fun _ h => (nomatch h), i⟩
    · next hge =>
      obtain ⟨bs, e, hl⟩ := Heap.load_eq (readable_prefix (n := sb.data.len) hc (by omega))
      have : Mem.onHeap (Heap.load ⟨r.block, r.off, sb.data.len⟩) m = (.ok bs, m) := by
        simp only [Mem.onHeap, Prog.zoom, e]
      rw [Prog.bind_ok this]
      exact store_ok i (i.readable x sb hx) (by rw [hl]; exact Nat.le_refl _)
  | fillStream x input =>
    exact withBuf_ok i (fun sb hx => store_ok i (i.readable x sb hx) (by simp; omega))
  | read x =>
    refine withBuf_ok i (fun sb hx => ?_)
    obtain ⟨bs, e, _⟩ := Heap.load_eq (i.readable x sb hx)
    have : Mem.onHeap (Heap.load sb.data) m = (.ok bs, m) := by
      simp only [Mem.onHeap, Prog.zoom, e]
    rw [Prog.bind_ok this]
    exact ⟨fun _ h => (nomatch h), i⟩
  | destroy x =>
    refine withBuf_ok i (fun sb hx => ?_)
    obtain ⟨m', e, hb, i', _⟩ := deleteAllocated_run i hx
    rw [Prog.bind_ok e]
    exact ⟨fun _ h => (nomatch h), i'⟩

theorem careful_run (ops : List BufOp) : ∀ m, MemInv m → CarefulRun ops m → (runBufOps ops m).1 = none := by
  induction ops with
  | nil => intro m _ _; rfl
  | cons op ops ih =>
    intro m i hc
    have h := careful_step i op hc.1
    have hc2 := hc.2
    unfold runBufOps
    generalize op.run m = r at h hc2 ⊢
    obtain ⟨res, m'⟩ := r
    cases res with
    | ok _ => exact ih m' h.2 hc2
    | throw _ => exact ih m' h.2 hc2
    | ub u => exact absurd rfl (h.1 u)

/-! ### Without stream parsing nothing is ever owned -/

/-- No raw buffer has an allocation. -/
def NoOwner (m : Mem) : Prop := ∀ b, ¬ Owned m b

theorem NoOwner.unowned {m : Mem} (h : NoOwner m) {x : Nat} {sb : SBuf} (hx : m.bufs[x]? = some (some sb)) :
    sb.allocated = none := by
  cases ha : sb.allocated with
  | none => rfl
  | some b => exact absurd ⟨x, sb, hx, ha⟩ (h b)

theorem NoOwner.set {m : Mem} (h : NoOwner m) (hp : Heap) (x : Nat) (v : Option SBuf) (hv : ∀ sb, v = some sb → sb.allocated = none) :
    NoOwner ⟨hp, m.bufs.set x v⟩ := by
  intro b ⟨y, sy, hy, hb⟩
  rcases get_set hy with ⟨_, e⟩ | ⟨_, e⟩
  · rw [hv sy e] at hb; cases hb
  · exact h b ⟨y, sy, e, hb⟩

theorem NoOwner.push {m : Mem} (h : NoOwner m) (v : SBuf) (hv : v.allocated = none) :
    NoOwner ⟨m.heap, m.bufs ++ [some v]⟩ := by
  intro b ⟨y, sy, hy, hb⟩
  rcases get_push hy with ⟨_, rfl⟩ | ⟨_, e⟩
  · rw [hv] at hb; cases hb
  · exact h b ⟨y, sy, e, hb⟩

theorem onHeap_bufs {α : Type} (p : Prog Heap α) (m : Mem) : (Mem.onHeap p m).2.bufs = m.bufs := rfl

theorem NoOwner.onHeap {α : Type} {m : Mem} (h : NoOwner m) (p : Prog Heap α) : NoOwner (Mem.onHeap p m).2 := h

theorem withBuf_noOwner {m : Mem} (i : NoOwner m) {x : Nat} {f : SBuf → Prog Mem Unit}
    (h : ∀ sb, m.bufs[x]? = some (some sb) → NoOwner (f sb m).2) : NoOwner (Mem.withBuf x f m).2 := by
  unfold Mem.withBuf
  split
  · next sb e => exact h sb e
  · exact i

theorem deleteAllocated_none {m : Mem} (h : NoOwner m) {x : Nat} {sb : SBuf} (hx : m.bufs[x]? = some (some sb)) :
    Mem.deleteAllocated x sb m = (.ok sb, m) := by
  unfold Mem.deleteAllocated
  rw [h.unowned hx]
  rfl

theorem noOwner_step {m : Mem} (h : NoOwner m) (op : BufOp) (hs : NoStreamParse op) : NoOwner (op.run m).2 := by
  cases op with
  | alloc bs => exact h
  | release b => exact h
  | new => exact h.push _ rfl
  | newOn r => exact h.push _ rfl
  | copy x => exact withBuf_noOwner h (fun sb hx => h.push _ (h.unowned hx))
  | assign x y =>
    exact withBuf_noOwner h (fun src hy => withBuf_noOwner h (fun sb hx => h.set _ _ _ (fun _ e => by
      cases e; exact h.unowned hy)))
  | assignRef x r =>
    exact withBuf_noOwner h (fun sb hx => h.set _ _ _ (fun _ e => by have hn := h.unowned hx; cases e; exact hn))
  | setData x r =>
    refine withBuf_noOwner h (fun sb hx => ?_)
    rw [Prog.bind_ok (deleteAllocated_none h hx)]
    exact h.set _ _ _ (fun _ e => by have hn := h.unowned hx; cases e; exact hn)
  | parse x n r =>
    refine withBuf_noOwner h (fun sb hx => ?_)
    rw [Prog.bind_ok (deleteAllocated_none h hx)]
    split
    · exact h
    · exact h.set _ _ _ (fun _ e => by have hn := h.unowned hx; cases e; exact hn)
  | parseStream x n junk input => exact hs.elim
  | fill x r =>
    refine withBuf_noOwner h (fun sb hx => ?_)
    split
    · exact h
    · rw [Prog.bind_def]
      unfold Prog.andThen
      have hb := onHeap_bufs (Heap.load ⟨r.block, r.off, sb.data.len⟩) m
      generalize Mem.onHeap (Heap.load ⟨r.block, r.off, sb.data.len⟩) m = q at hb ⊢
      obtain ⟨res, m'⟩ := q
      have h' : NoOwner m' := fun b ⟨y, sy, hy, ho⟩ => h b ⟨y, sy, by rw [← hb]; exact hy, ho⟩
      cases res with
      | ok _ => exact h'
      | throw _ => exact h'
      | ub _ => exact h'
  | fillStream x input => exact withBuf_noOwner h (fun sb hx => h)
  | read x =>
    refine withBuf_noOwner h (fun sb hx => ?_)
    rw [Prog.bind_def]
    unfold Prog.andThen
    have hb := onHeap_bufs (Heap.load sb.data) m
    generalize Mem.onHeap (Heap.load sb.data) m = q at hb ⊢
    obtain ⟨res, m'⟩ := q
    have h' : NoOwner m' := fun b ⟨y, sy, hy, ho⟩ => h b ⟨y, sy, by rw [← hb]; exact hy, ho⟩
    cases res with
    | ok _ => exact h'
    | throw _ => exact h'
    | ub _ => exact h'
  | destroy x =>
    refine withBuf_noOwner h (fun sb hx => ?_)
    rw [Prog.bind_ok (deleteAllocated_none h hx)]
    exact h.set _ _ _ (fun _ e => nomatch e)

theorem correct_careful {m : Mem} (h : NoOwner m) (op : BufOp) (hc : Correct m op) : Careful m op := by
  cases op with
  | release b => exact hc
  | newOn r => exact ⟨hc, h _⟩
  | assignRef x r => exact ⟨hc, h _⟩
  | setData x r => exact ⟨hc, h _⟩
  | copy x => exact fun sb hx => h.unowned hx
  | assign x y => exact fun sb hx => h.unowned hx
  | parse x n r => exact ⟨⟨hc, h _⟩, .inr (fun sb hx => h.unowned hx)⟩
  | fill x r => exact hc
  | _ => trivial

theorem correct_carefulRun (ops : List BufOp) : ∀ m, NoOwner m → (∀ op ∈ ops, NoStreamParse op) → CorrectRun ops m →
    CarefulRun ops m := by
  induction ops with
  | nil => intro m _ _ _; trivial
  | cons op ops ih =>
    intro m h hs hc
    exact ⟨correct_careful h op hc.1, ih _ (noOwner_step h op (hs op (by simp))) (fun o ho => hs o (by simp [ho])) hc.2⟩

end Eip
