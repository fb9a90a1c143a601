import Verif.Lemmas.Memory
/-
Counting blocks and owners of raw buffers (C94).
-/
namespace Eip
open Spec

theorem countP_set {α : Type} (p : α → Bool) {l : List α} {i : Nat} {old : α} (h : l[i]? = some old) (new : α) :
    (l.set i new).countP p + (if p old then 1 else 0) = l.countP p + (if p new then 1 else 0) := by
  induction l generalizing i with
  | nil => simp at h
  | cons a l ih =>
    cases i with
    | zero =>
      simp only [List.getElem?_cons_zero, Option.some.injEq] at h
      subst h
      simp only [List.set_cons_zero, List.countP_cons]
      omega
    | succ i =>
      simp only [List.getElem?_cons_succ] at h
      have := ih h
      simp only [List.set_cons_succ, List.countP_cons]
      omega

/-- An existing raw buffer that owns memory. -/
def isOwner : Option SBuf → Bool
  | some sb => sb.allocated.isSome
  | none => false

/-- Number of raw buffers that own memory. -/
def owners (m : Mem) : Nat := m.bufs.countP isOwner

theorem store_live (r : Ref) (bs : Bytes) (h : Heap) :
    (Heap.store r bs h).2.blocks.countP Option.isSome = h.blocks.countP Option.isSome := by
  unfold Heap.store
  split
  · rfl
  · split
    · next old hb =>
      split
      · have := countP_set Option.isSome hb (some (old.take r.off ++ bs ++ old.drop (r.off + bs.length)))
        simpa using this
      · rfl
    · rfl

theorem free_live {h h' : Heap} {b : Nat} (e : Heap.free b h = (.ok (), h')) :
    h'.blocks.countP Option.isSome + 1 = h.blocks.countP Option.isSome := by
  unfold Heap.free at e
  split at e
  · next bs hb =>
    cases e
    have := countP_set Option.isSome hb none
    simpa using this
  · cases e

/-- Blocks in excess of owners; `Balance a r m m'`: it grew by `a` and shrank by `r`. -/
def Balance (a r : Nat) (m m' : Mem) : Prop := liveBlocks m' + owners m + r = liveBlocks m + owners m' + a

theorem Balance.refl (m : Mem) : Balance 0 0 m m := rfl

theorem Balance.same {m m' : Mem} (h1 : liveBlocks m' = liveBlocks m) (h2 : owners m' = owners m) : Balance 0 0 m m' := by
  unfold Balance; omega

theorem Balance.trans {a r a' r' : Nat} {m m' m'' : Mem} (h1 : Balance a r m m') (h2 : Balance a' r' m' m'') :
    Balance (a + a') (r + r') m m'' := by
  unfold Balance at *; omega

theorem owners_push (m : Mem) (sb : SBuf) (h : sb.allocated = none) :
    owners { m with bufs := m.bufs ++ [some sb] } = owners m := by
  simp [owners, isOwner, h]

theorem owners_set (m : Mem) {x : Nat} {old : SBuf} (hx : m.bufs[x]? = some (some old)) (v : Option SBuf) (hp : Heap) :
    owners ⟨hp, m.bufs.set x v⟩ + (if old.allocated.isSome then 1 else 0) = owners m + (if isOwner v then 1 else 0) := by
  exact countP_set isOwner hx v

theorem withBuf_balance {a r : Nat} {m : Mem} {x : Nat} {f : SBuf → Prog Mem Unit}
    (h : ∀ sb, m.bufs[x]? = some (some sb) → Balance a r m (f sb m).2) (h0 : a = r) :
    Balance a r m (Mem.withBuf x f m).2 := by
  unfold Mem.withBuf
  split
  · next sb e => exact h sb e
  · show Balance a r m m
    unfold Balance; omega

theorem deleteAllocated_balance {m m' : Mem} {x : Nat} {sb : SBuf} (hx : m.bufs[x]? = some (some sb))
    (e : Mem.deleteAllocated x sb m = (.ok { sb with allocated := none }, m')) : Balance 0 0 m m' := by
  unfold Mem.deleteAllocated at e
  cases ha : sb.allocated with
  | none =>
    rw [ha] at e
    have e' : m = m' := congrArg Prod.snd e
    rw [← e']; exact Balance.refl m
  | some b =>
    rw [ha] at e
    cases hf : Heap.free b m.heap with
    | mk res h' =>
      cases res with
      | ok u =>
        have ef : Mem.onHeap (Heap.free b) m = (.ok (), { m with heap := h' }) := by
          simp only [Mem.onHeap, Prog.zoom, hf]
        simp only at e
        rw [Prog.bind_ok ef] at e
        have e' : (⟨h', m.bufs.set x (some { sb with allocated := none })⟩ : Mem) = m' := congrArg Prod.snd e
        subst e'
        have h1 := free_live hf
        have h2 := owners_set m hx (some { sb with allocated := none }) h'
        rw [ha] at h2
        simp only [isOwner, Option.isSome_some, Option.isSome_none, if_true, Bool.false_eq_true, if_false] at h2
        unfold Balance liveBlocks
        simp only
        omega
      | throw ex =>
        have ef : Mem.onHeap (Heap.free b) m = (.throw ex, { m with heap := h' }) := by
          simp only [Mem.onHeap, Prog.zoom, hf]
        simp only at e
        rw [Prog.bind_throw ef] at e
        cases e
      | ub u =>
        have ef : Mem.onHeap (Heap.free b) m = (.ub u, { m with heap := h' }) := by
          simp only [Mem.onHeap, Prog.zoom, hf]
        simp only at e
        rw [Prog.bind_ub ef] at e
        cases e

/-- Replacing the members of a raw buffer by others that own memory exactly if the old ones did. -/
theorem setBuf_balance (m : Mem) {x : Nat} {old : SBuf} (hx : m.bufs[x]? = some (some old)) (sb : SBuf)
    (h : sb.allocated.isSome = old.allocated.isSome) : Balance 0 0 m { m with bufs := m.bufs.set x (some sb) } := by
  have := owners_set m hx (some sb) m.heap
  simp only [isOwner, h] at this
  exact Balance.same rfl (by omega)

theorem store_balance (m : Mem) (r : Ref) (bs : Bytes) : Balance 0 0 m (Mem.onHeap (Heap.store r bs) m).2 :=
  Balance.same (store_live r bs m.heap) rfl

theorem load_heap (r : Ref) (h : Heap) : (Heap.load r h).2 = h := by
  unfold Heap.load; split <;> rfl

theorem thrifty_step {m : Mem} (i : MemInv m) (op : BufOp) (hc : Careful m op) (ht : Thrifty m op) :
    Balance (allocations [op]) (releases [op]) m (op.run m).2 := by
  cases op with
  | alloc bs =>
    show liveBlocks ⟨⟨m.heap.blocks ++ [some bs]⟩, m.bufs⟩ + owners m + 0 = liveBlocks m + owners ⟨_, m.bufs⟩ + 1
    simp only [liveBlocks, owners, List.countP_append]
    simp; omega
  | release b =>
    obtain ⟨⟨bs, hb⟩, no, nu⟩ := hc
    obtain ⟨h', e, keep⟩ := Heap.free_eq ⟨bs, hb, rfl⟩
    have h1 := free_live e
    simp only [BufOp.run, Mem.onHeap, Prog.zoom, e]
    show liveBlocks ⟨h', m.bufs⟩ + owners m + 1 = liveBlocks m + owners ⟨h', m.bufs⟩ + 0
    simp only [liveBlocks, owners]
    omega
  | new => exact Balance.same rfl (owners_push m _ rfl)
  | newOn r => exact Balance.same rfl (owners_push m _ rfl)
  | copy x => exact withBuf_balance (fun sb hx => Balance.same rfl (owners_push m sb (hc sb hx))) rfl
  | assign x y =>
    refine withBuf_balance (fun src hy => withBuf_balance (fun sb hx => ?_) rfl) rfl
    exact setBuf_balance m hx src (by rw [hc src hy, ht sb hx])
  | assignRef x r => exact withBuf_balance (fun sb hx => setBuf_balance m hx { sb with data := r } rfl) rfl
  | setData x r =>
    refine withBuf_balance (fun sb hx => ?_) rfl
    obtain ⟨m', e, hb, _⟩ := deleteAllocated_run i hx
    have b1 := deleteAllocated_balance hx e
    rw [Prog.bind_ok e]
    have hx' : m'.bufs[x]? = some (some { sb with allocated := none }) := by
      rw [hb]; exact List.getElem?_set_self (List.getElem?_eq_some_iff.1 hx).1
    exact b1.trans (setBuf_balance m' hx' { { sb with allocated := none } with data := r } rfl)
  | parse x n r =>
    refine withBuf_balance (fun sb hx => ?_) rfl
    obtain ⟨m', e, hb, _⟩ := deleteAllocated_run i hx
    have b1 := deleteAllocated_balance hx e
    rw [Prog.bind_ok e]
    have hx' : m'.bufs[x]? = some (some { sb with allocated := none }) := by
      rw [hb]; exact List.getElem?_set_self (List.getElem?_eq_some_iff.1 hx).1
    split
    · exact b1
    · exact b1.trans (setBuf_balance m' hx' { { sb with allocated := none } with data := ⟨r.block, r.off, n⟩ } rfl)
  | parseStream x n junk input =>
    refine withBuf_balance (fun sb hx => ?_) rfl
    split
    · obtain ⟨m', e, hb, _⟩ := deleteAllocated_run i hx
      have b1 := deleteAllocated_balance hx e
      rw [Prog.bind_ok e]
      have hx' : m'.bufs[x]? = some (some { sb with allocated := none }) := by
        rw [hb]; exact List.getElem?_set_self (List.getElem?_eq_some_iff.1 hx).1
      refine (b1.trans (a' := 0) (r' := 0) (m'' := (⟨(Heap.alloc (List.replicate n junk) m'.heap).2,
        m'.bufs.set x (some ⟨⟨m'.heap.blocks.length, 0, n⟩, some m'.heap.blocks.length⟩)⟩ : Mem)) ?_).trans
        (store_balance _ ⟨m'.heap.blocks.length, 0, n⟩ (input.take n))
      have h2 := owners_set m' hx' (some ⟨⟨m'.heap.blocks.length, 0, n⟩, some m'.heap.blocks.length⟩)
        (Heap.alloc (List.replicate n junk) m'.heap).2
      simp only [isOwner, Option.isSome_some, Option.isSome_none, if_true, Bool.false_eq_true, if_false] at h2
      have h1 : liveBlocks ⟨(Heap.alloc (List.replicate n junk) m'.heap).2,
          m'.bufs.set x (some ⟨⟨m'.heap.blocks.length, 0, n⟩, some m'.heap.blocks.length⟩)⟩ = liveBlocks m' + 1 := by
        simp [liveBlocks, Heap.alloc]
      unfold Balance
      omega
    · exact store_balance _ _ _
  | fill x r =>
    refine withBuf_balance (fun sb hx => ?_) rfl
    split
    · exact Balance.refl m
    · next hge =>
      obtain ⟨bs, e, hl⟩ := Heap.load_eq (readable_prefix (n := sb.data.len) hc (by omega))
      have : Mem.onHeap (Heap.load ⟨r.block, r.off, sb.data.len⟩) m = (.ok bs, m) := by
        simp only [Mem.onHeap, Prog.zoom, e]
      rw [Prog.bind_ok this]
      exact store_balance _ _ _
  | fillStream x input => exact withBuf_balance (fun sb hx => store_balance _ _ _) rfl
  | read x =>
    refine withBuf_balance (fun sb hx => ?_) rfl
    obtain ⟨bs, e, _⟩ := Heap.load_eq (i.readable x sb hx)
    have : Mem.onHeap (Heap.load sb.data) m = (.ok bs, m) := by
      simp only [Mem.onHeap, Prog.zoom, e]
    rw [Prog.bind_ok this]
    exact Balance.refl m
  | destroy x =>
    refine withBuf_balance (fun sb hx => ?_) rfl
    obtain ⟨m', e, hb, _⟩ := deleteAllocated_run i hx
    have b1 := deleteAllocated_balance hx e
    rw [Prog.bind_ok e]
    have hx' : m'.bufs[x]? = some (some { sb with allocated := none }) := by
      rw [hb]; exact List.getElem?_set_self (List.getElem?_eq_some_iff.1 hx).1
    refine b1.trans (a' := 0) (r' := 0) (m'' := { m' with bufs := m'.bufs.set x none }) (Balance.same rfl ?_)
    have := owners_set m' hx' none m'.heap
    simpa [isOwner] using this

theorem thrifty_run (ops : List BufOp) : ∀ m, MemInv m → ThriftyRun ops m →
    Balance (allocations ops) (releases ops) m (runBufOps ops m).2 := by
  induction ops with
  | nil => intro m _ _; exact Balance.refl m
  | cons op ops ih =>
    intro m i hc
    have h := careful_step i op hc.1
    have b := thrifty_step i op hc.1 hc.2.1
    have hc2 := hc.2.2
    have ea : allocations (op :: ops) = allocations [op] + allocations ops := by
      simp [allocations, List.countP_cons]; omega
    have er : releases (op :: ops) = releases [op] + releases ops := by
      simp [releases, List.countP_cons]; omega
    rw [ea, er]
    unfold runBufOps
    generalize op.run m = r at h hc2 b ⊢
    obtain ⟨res, m'⟩ := r
    cases res with
    | ok _ => exact b.trans (ih m' h.2 hc2)
    | throw _ => exact b.trans (ih m' h.2 hc2)
    | ub u => exact absurd rfl (h.1 u)

end Eip
