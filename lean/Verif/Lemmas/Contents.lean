import Verif.Spec.Contents
import Verif.Lemmas.Memory
/-
What raw buffers show: lemmas for C117 and C118.
-/
namespace Eip
open Spec

/-! ### The heap -/

theorem Heap.contents_length {h : Heap} {r : Ref} {bs : Bytes} (e : h.contents r = some bs) : bs.length = r.len := by
  unfold Heap.contents at e
  split at e
  · next h0 => cases e; exact h0.symm
  · split at e
    · split at e
      · cases e; simp; omega
      · cases e
    · cases e

/-- The contents depend only on the block referred to. -/
theorem Heap.contents_congr {h h' : Heap} {r : Ref} (e : r.len ≠ 0 → h'.blocks[r.block]? = h.blocks[r.block]?) :
    h'.contents r = h.contents r := by
  unfold Heap.contents
  split
  · rfl
  · next h0 => rw [e h0]

/-- A shorter reference to the same place. -/
theorem Heap.contents_prefix {h : Heap} {r : Ref} {bs : Bytes} (e : h.contents r = some bs) {n : Nat} (hn : n ≤ r.len) :
    h.contents ⟨r.block, r.off, n⟩ = some (bs.take n) := by
  unfold Heap.contents at e ⊢
  by_cases h0 : n = 0
  · subst h0; simp
  · rw [if_neg (by omega)] at e
    simp only
    rw [if_neg h0]
    split at e
    · next bs' hb =>
      split at e
      · next hl =>
        cases e
        rw [if_pos (by omega), List.take_take, Nat.min_eq_left hn]
      · cases e
    · cases e

theorem Heap.alloc_contents {h : Heap} (bs : Bytes) :
    (Heap.alloc bs h).2.contents ⟨h.blocks.length, 0, bs.length⟩ = some bs := by
  unfold Heap.contents
  split
  · next h0 =>
    simp only at h0
    rw [List.length_eq_zero_iff.1 h0]
  · simp [Heap.alloc]

theorem Heap.alloc_keeps {h : Heap} (bs : Bytes) {r : Ref} (hr : (h.contents r).isSome) :
    (Heap.alloc bs h).2.contents r = h.contents r := by
  refine Heap.contents_congr (fun h0 => ?_)
  rcases (Heap.contents_isSome h r).1 hr with e | ⟨n, hs, _⟩
  · exact absurd e h0
  · exact List.getElem?_append_left hs.lt

theorem Heap.free_keeps {h : Heap} {b n : Nat} (hb : h.Size b n) {r : Ref} (hr : r.len ≠ 0 → r.block ≠ b) :
    (Heap.free b h).2.contents r = h.contents r := by
  obtain ⟨bs, hb, _⟩ := hb
  refine Heap.contents_congr (fun h0 => ?_)
  simp only [Heap.free, hb]
  rw [List.getElem?_set_ne (Ne.symm (hr h0))]

/-- Bytes stored at the start of a place: they are there afterwards, what follows them is as before, and so is every
other place. -/
theorem Heap.store_contents {h : Heap} {r : Ref} {old : Bytes} (e : h.contents r = some old) {bs : Bytes}
    (hl : bs.length ≤ r.len) :
    ∃ h', Heap.store r bs h = (.ok (), h') ∧ h'.contents r = some (bs ++ old.drop bs.length) ∧
      ∀ q, Apart q r → h'.contents q = h.contents q := by
  unfold Heap.store
  split
  · next hb => exact ⟨h, rfl, by rw [hb, e]; rfl, fun _ _ => rfl⟩
  · next hne =>
    have hpos : 0 < bs.length := List.length_pos_iff.2 hne
    have h0 : r.len ≠ 0 := by omega
    unfold Heap.contents at e
    rw [if_neg h0] at e
    split at e
    · next blk hb =>
      split at e
      · next hle =>
        cases e
        rw [if_pos (by omega)]
        have hlt : r.block < h.blocks.length := (List.getElem?_eq_some_iff.1 hb).1
        refine ⟨_, rfl, ?_, fun q hq => ?_⟩
        · unfold Heap.contents
          rw [if_neg h0]
          have e1 : (h.blocks.set r.block (some (blk.take r.off ++ bs ++ blk.drop (r.off + bs.length))))[r.block]?
              = some (some (blk.take r.off ++ bs ++ blk.drop (r.off + bs.length))) := by simp [hlt]
          simp only [e1]
          rw [if_pos (by simp; omega)]
          congr 1
          apply List.ext_getElem?
          intro k
          simp only [List.getElem?_take, List.getElem?_drop, List.getElem?_append, List.length_append, List.length_take,
            Nat.min_eq_left (show r.off ≤ blk.length by omega)]
          by_cases k1 : k < bs.length
          · have a1 : k < r.len := by omega
            have a2 : r.off + k < r.off + bs.length := by omega
            have a3 : ¬ r.off + k < r.off := by omega
            simp only [a1, a2, a3, k1, if_false, if_pos]
            congr 1; omega
          · have a2 : ¬ r.off + k < r.off + bs.length := by omega
            simp only [a2, k1, if_false]
            by_cases k2 : k < r.len
            · have a4 : bs.length + (k - bs.length) < r.len := by omega
              simp only [k2, a4, if_true]
              congr 1; omega
            · have a4 : ¬ bs.length + (k - bs.length) < r.len := by omega
              simp only [k2, a4, if_false]
        · rcases hq with hq | hq | hq
          · unfold Heap.contents; rw [if_pos hq, if_pos hq]
          · exact Heap.contents_congr (fun _ => by simp only; rw [List.getElem?_set_ne (Ne.symm hq)])
          · by_cases hb' : q.block = r.block
            · unfold Heap.contents
              by_cases hq0 : q.len = 0
              · rw [if_pos hq0, if_pos hq0]
              · rw [if_neg hq0, if_neg hq0, hb', hb]
                have e1 : (h.blocks.set r.block (some (blk.take r.off ++ bs ++ blk.drop (r.off + bs.length))))[r.block]?
                    = some (some (blk.take r.off ++ bs ++ blk.drop (r.off + bs.length))) := by simp [hlt]
                simp only [e1]
                have el : (blk.take r.off ++ bs ++ blk.drop (r.off + bs.length)).length = blk.length := by simp; omega
                rw [el]
                split
                · next hql =>
                  congr 1
                  apply List.ext_getElem?
                  intro k
                  simp only [List.getElem?_take, List.getElem?_drop, List.getElem?_append, List.length_append, List.length_take,
                    Nat.min_eq_left (show r.off ≤ blk.length by omega)]
                  by_cases k2 : k < q.len
                  · simp only [k2, if_true]
                    rcases hq with hq | hq
                    · have a1 : q.off + k < r.off := by omega
                      have a2 : q.off + k < r.off + bs.length := by omega
                      simp only [a1, a2, if_true]
                    · have a2 : ¬ q.off + k < r.off + bs.length := by omega
                      simp only [a2, if_false]
                      congr 1; omega
                  · simp only [k2, if_false]
                · rfl
            · exact Heap.contents_congr (fun _ => by simp only; rw [List.getElem?_set_ne (Ne.symm hb')])
      · cases e
    · cases e

/-! ### Raw buffers -/

theorem shows_eq {m : Mem} {x : Nat} {old : Bytes} (e : shows m x = some old) :
    ∃ sb, m.bufs[x]? = some (some sb) ∧ m.heap.contents sb.data = some old := by
  unfold shows at e
  split at e
  · next sb hx => exact ⟨sb, hx, e⟩
  · cases e

theorem shows_of {m : Mem} {x : Nat} {sb : SBuf} (hx : m.bufs[x]? = some (some sb)) : shows m x = m.heap.contents sb.data := by
  unfold shows; rw [hx]

theorem withBuf_eq {m : Mem} {x : Nat} {sb : SBuf} (hx : m.bufs[x]? = some (some sb)) (f : SBuf → Prog Mem Unit) :
    Mem.withBuf x f m = f sb m := by
  unfold Mem.withBuf; rw [hx]

theorem withBuf_cases (m : Mem) (x : Nat) :
    (∃ sb, m.bufs[x]? = some (some sb)) ∨ (shows m x = none ∧ ∀ f, Mem.withBuf x f m = (.ok (), m)) := by
  cases hx : m.bufs[x]? with
  | none => exact .inr ⟨by unfold shows; rw [hx], fun f => by unfold Mem.withBuf; rw [hx]⟩
  | some o =>
    cases o with
    | none => exact .inr ⟨by unfold shows; rw [hx], fun f => by unfold Mem.withBuf; rw [hx]⟩
    | some sb => exact .inl ⟨sb, rfl⟩

theorem get_set_self {l : List (Option SBuf)} {x : Nat} {o : Option SBuf} (h : l[x]? = some o) (v : Option SBuf) :
    (l.set x v)[x]? = some v := by
  rw [List.getElem?_set_self', h]; rfl

/-- `deleteAllocatedBuffer`: memory other than the allocation is unchanged. -/
theorem deleteAllocated_contents {m : Mem} (i : MemInv m) {x : Nat} {sb : SBuf} (hx : m.bufs[x]? = some (some sb)) :
    ∃ m', Mem.deleteAllocated x sb m = (.ok { sb with allocated := none }, m') ∧
      m'.bufs = m.bufs.set x (some { sb with allocated := none }) ∧
      (∀ r, (r.len ≠ 0 → sb.allocated ≠ some r.block) → m'.heap.contents r = m.heap.contents r) ∧
      (sb.allocated = none → m' = m) := by
  obtain ⟨m', e, hb, _, _, same⟩ := deleteAllocated_run i hx
  refine ⟨m', e, hb, fun r hr => ?_, same⟩
  cases ha : sb.allocated with
  | none => rw [same ha]
  | some b =>
    obtain ⟨n, hs⟩ := i.live x sb b hx ha
    unfold Mem.deleteAllocated at e
    obtain ⟨h', ef, _⟩ := Heap.free_eq hs
    rw [ha] at e
    simp [Mem.onHeap, Prog.zoom, Mem.setBuf, Prog.modify, Prog.bind_def, Prog.andThen, ef, Prog.pure_apply] at e
    rw [← e]
    have := Heap.free_keeps hs (r := r) (fun h0 eb => hr h0 (by rw [ha, eb]))
    rw [ef] at this
    exact this

theorem onHeap_store {m : Mem} {r : Ref} {bs : Bytes} {h' : Heap} (e : Heap.store r bs m.heap = (.ok (), h')) :
    Mem.onHeap (Heap.store r bs) m = (.ok (), { m with heap := h' }) := by
  simp only [Mem.onHeap, Prog.zoom, e]

/-- Every operation of a careful user does what it should. -/
theorem right_step {m : Mem} (i : MemInv m) (op : BufOp) (hc : Careful m op) : Right m op (op.run m) := by
  cases op with
  | alloc bs => exact ⟨rfl, Heap.alloc_contents bs⟩
  | release b =>
    obtain ⟨⟨bs, hb⟩, _, _⟩ := hc
    obtain ⟨h', e, _⟩ := Heap.free_eq ⟨bs, hb, rfl⟩
    show (Mem.onHeap (Heap.free b) m).1 = _
    simp only [Mem.onHeap, Prog.zoom, e]
  | new => 
    refine ⟨rfl, ?_⟩
    have hx : (BufOp.new.run m).2.bufs[m.bufs.length]? = some (some ⟨Ref.null, none⟩) := by simp [BufOp.run, Mem.push, Prog.modify]
    rw [shows_of hx]; rfl
  | newOn r =>
    refine ⟨rfl, ?_⟩
    have hx : ((BufOp.newOn r).run m).2.bufs[m.bufs.length]? = some (some ⟨r, none⟩) := by simp [BufOp.run, Mem.push, Prog.modify]
    rw [shows_of hx]; rfl
  | copy x =>
    intro old ho
    obtain ⟨sb, hx, e⟩ := shows_eq ho
    have er : (BufOp.copy x).run m = (.ok (), { m with bufs := m.bufs ++ [some sb] }) := withBuf_eq hx _
    rw [er]
    refine ⟨rfl, ?_⟩
    rw [shows_of (sb := sb) (by simp)]
    exact e
  | assign x y =>
    intro old new ho hn
    obtain ⟨sb, hx, _⟩ := shows_eq ho
    obtain ⟨src, hy, e⟩ := shows_eq hn
    have er : (BufOp.assign x y).run m = (.ok (), { m with bufs := m.bufs.set x (some src) }) := by
      show Mem.withBuf y _ m = _
      rw [withBuf_eq hy, withBuf_eq hx]; rfl
    rw [er]
    refine ⟨rfl, ?_⟩
    rw [shows_of (sb := src) (get_set_self hx _)]
    exact e
  | assignRef x r =>
    intro old ho
    obtain ⟨sb, hx, _⟩ := shows_eq ho
    have er : (BufOp.assignRef x r).run m = (.ok (), { m with bufs := m.bufs.set x (some { sb with data := r }) }) := withBuf_eq hx _
    rw [er]
    refine ⟨rfl, ?_⟩
    rw [shows_of (get_set_self hx _)]
  | setData x r =>
    intro old ho
    obtain ⟨sb, hx, _⟩ := shows_eq ho
    obtain ⟨m', e, hb, keep, _⟩ := deleteAllocated_contents i hx
    have er : (BufOp.setData x r).run m = (.ok (), { m' with bufs := m'.bufs.set x (some ⟨r, none⟩) }) := by
      show Mem.withBuf x _ m = _
      rw [withBuf_eq hx, Prog.bind_ok e]; rfl
    rw [er]
    refine ⟨rfl, ?_⟩
    rw [shows_of (sb := ⟨r, none⟩) (get_set_self (by rw [hb]; exact get_set_self hx _) _)]
    exact keep r (fun _ ha => hc.2 ⟨x, sb, hx, ha⟩)
  | parse x n r =>
    intro old new ho hn
    obtain ⟨sb, hx, _⟩ := shows_eq ho
    obtain ⟨m', e, hb, keep, same⟩ := deleteAllocated_contents i hx
    have hl := Heap.contents_length hn
    split
    · next hle =>
      have er : (BufOp.parse x n r).run m = (.ok (), { m' with bufs := m'.bufs.set x (some ⟨⟨r.block, r.off, n⟩, none⟩) }) := by
        show Mem.withBuf x _ m = _
        rw [withBuf_eq hx, Prog.bind_ok e, if_neg (by omega)]; rfl
      rw [er]
      refine ⟨rfl, ?_⟩
      rw [shows_of (sb := ⟨⟨r.block, r.off, n⟩, none⟩) (get_set_self (by rw [hb]; exact get_set_self hx _) _)]
      have := keep r (fun _ ha => hc.1.2 ⟨x, sb, hx, ha⟩)
      rw [hn] at this
      exact Heap.contents_prefix this (by omega)
    · next hgt =>
      have hbr : sb.allocated = none := by
        rcases hc.2 with h | h
        · omega
        · exact h sb hx
      show Mem.withBuf x _ m = _
      rw [withBuf_eq hx, Prog.bind_ok e, if_pos (by omega), same hbr]; rfl
  | parseStream x n junk input =>
    intro old ho
    obtain ⟨sb, hx, eo⟩ := shows_eq ho
    have hl := Heap.contents_length eo
    by_cases hn : n = sb.data.len
    · obtain ⟨h', es, ec, _⟩ := Heap.store_contents eo (bs := input.take n) (by simp; omega)
      have er : (BufOp.parseStream x n junk input).run m = (.ok (), { m with heap := h' }) := by
        show Mem.withBuf x _ m = _
        rw [withBuf_eq hx, if_neg (by simp [hn])]
        exact onHeap_store es
      rw [er]
      refine ⟨rfl, ?_⟩
      rw [shows_of (m := { m with heap := h' }) hx, if_pos (by omega)]
      refine ec.trans (congrArg some (congrArg _ ?_))
      rw [List.length_take, hn, ← hl]
      rcases Nat.le_total old.length input.length with h | h
      · rw [Nat.min_eq_left h, List.drop_of_length_le h, List.drop_length]
      · rw [Nat.min_eq_right h]
    · obtain ⟨m', e, hb, keep, same⟩ := deleteAllocated_contents i hx
      have ea := Heap.alloc_contents (h := m'.heap) (List.replicate n junk)
      rw [List.length_replicate] at ea
      obtain ⟨h', es, ec, _⟩ := Heap.store_contents ea (bs := input.take n) (by simp; omega)
      have er : (BufOp.parseStream x n junk input).run m =
          (.ok (), ⟨h', m'.bufs.set x (some ⟨⟨m'.heap.blocks.length, 0, n⟩, some m'.heap.blocks.length⟩)⟩) := by
        show Mem.withBuf x _ m = _
        rw [withBuf_eq hx, if_pos hn, Prog.bind_ok e]
        exact onHeap_store (m := ⟨(Heap.alloc (List.replicate n junk) m'.heap).2, _⟩) es
      rw [er]
      refine ⟨rfl, ?_⟩
      rw [shows_of (sb := ⟨⟨m'.heap.blocks.length, 0, n⟩, some m'.heap.blocks.length⟩)
        (get_set_self (by rw [hb]; exact get_set_self hx _) _), if_neg (by omega)]
      refine ec.trans (congrArg some (congrArg _ ?_))
      rw [List.length_take]
      rcases Nat.le_total n input.length with h | h
      · rw [Nat.min_eq_left h, List.drop_replicate, List.drop_replicate, Nat.sub_self, Nat.sub_eq_zero_of_le h]
      · rw [Nat.min_eq_right h]
  | fill x r =>
    intro old new ho hn
    obtain ⟨sb, hx, eo⟩ := shows_eq ho
    have hl := Heap.contents_length eo
    have hl' := Heap.contents_length hn
    split
    · next hle =>
      have el := Heap.contents_prefix hn (n := sb.data.len) (by omega)
      obtain ⟨h', es, ec, _⟩ := Heap.store_contents eo (bs := new.take sb.data.len) (by simp; omega)
      have eload : Mem.onHeap (Heap.load ⟨r.block, r.off, sb.data.len⟩) m = (.ok (new.take sb.data.len), m) := by
        simp only [Mem.onHeap, Prog.zoom, Heap.load, el]
      have er : (BufOp.fill x r).run m = (.ok (), { m with heap := h' }) := by
        show Mem.withBuf x _ m = _
        rw [withBuf_eq hx, if_neg (by omega), Prog.bind_ok eload]
        exact onHeap_store es
      rw [er]
      refine ⟨rfl, ?_⟩
      rw [shows_of (m := { m with heap := h' }) hx]
      refine ec.trans (congrArg some ?_)
      rw [List.length_take, Nat.min_eq_left (by omega), ← hl, List.drop_length, List.append_nil]
    · next hgt =>
      show Mem.withBuf x _ m = _
      rw [withBuf_eq hx, if_pos (by omega)]; rfl
  | fillStream x input =>
    intro old ho
    obtain ⟨sb, hx, eo⟩ := shows_eq ho
    have hl := Heap.contents_length eo
    obtain ⟨h', es, ec, _⟩ := Heap.store_contents eo (bs := input.take sb.data.len) (by simp; omega)
    have er : (BufOp.fillStream x input).run m = (.ok (), { m with heap := h' }) := by
      show Mem.withBuf x _ m = _
      rw [withBuf_eq hx]
      exact onHeap_store es
    rw [er]
    refine ⟨rfl, ?_⟩
    rw [shows_of (m := { m with heap := h' }) hx]
    refine ec.trans (congrArg some ?_)
    rw [← hl]
    refine congrArg _ ?_
    rw [List.length_take]
    rcases Nat.le_total old.length input.length with h | h
    · rw [Nat.min_eq_left h, List.drop_of_length_le h, List.drop_length]
    · rw [Nat.min_eq_right h]
  | read x =>
    show Mem.withBuf x _ m = _
    rcases withBuf_cases m x with ⟨sb, hx⟩ | hx
    · obtain ⟨bs, e, _⟩ := Heap.load_eq (i.readable x sb hx)
      have : Mem.onHeap (Heap.load sb.data) m = (.ok bs, m) := by
        simp only [Mem.onHeap, Prog.zoom, e]
      rw [withBuf_eq hx, Prog.bind_ok this]; rfl
    · exact hx.2 _
  | destroy x =>
    show (Mem.withBuf x _ m).1 = _ ∧ shows (Mem.withBuf x _ m).2 x = none
    rcases withBuf_cases m x with ⟨sb, hx⟩ | hx
    · obtain ⟨m', e, hb, _, _⟩ := deleteAllocated_contents i hx
      rw [withBuf_eq hx, Prog.bind_ok e]
      refine ⟨rfl, ?_⟩
      have hx' : m'.bufs[x]? = some (some { sb with allocated := none }) := by rw [hb]; exact get_set_self hx _
      have : (m'.bufs.set x none)[x]? = some none := get_set_self hx' _
      simp only [shows, Prog.modify, this]
    · rw [hx.2]
      exact ⟨rfl, hx.1⟩

/-! ### What operations leave alone -/

/-- A step changes nothing outside the memory it stores through, frees or is told to free. -/
theorem elsewhere_step {m : Mem} (i : MemInv m) (op : BufOp) (hc : Careful m op) {q : Ref} (hq : Readable m q)
    (hf : q.len ≠ 0 → ∀ x sb, target op = some x → m.bufs[x]? = some (some sb) → StoresThrough m op ∨ sb.allocated ≠ some q.block)
    (hk : q.len ≠ 0 → op ≠ .release q.block) (hs : Spares m op q) :
    (op.run m).2.heap.contents q = m.heap.contents q := by
  have dead : ∀ {x : Nat} {f : SBuf → Prog Mem Unit},
      (∀ sb, m.bufs[x]? = some (some sb) → (f sb m).2.heap.contents q = m.heap.contents q) →
      (Mem.withBuf x f m).2.heap.contents q = m.heap.contents q := by
    intro x f h
    unfold Mem.withBuf
    split
    · next sb e => exact h sb e
    · rfl
  cases op with
  | alloc bs => exact Heap.alloc_keeps bs hq
  | release b =>
    obtain ⟨⟨bs, hb⟩, _, _⟩ := hc
    obtain ⟨h', e, _⟩ := Heap.free_eq ⟨bs, hb, rfl⟩
    have := Heap.free_keeps ⟨bs, hb, rfl⟩ (r := q) (fun h0 e => hk h0 (by rw [e]))
    exact this
  | new => rfl
  | newOn r => rfl
  | copy x => exact dead (fun _ _ => rfl)
  | assign x y => exact dead (fun src _ => dead (fun _ _ => rfl))
  | assignRef x r => exact dead (fun _ _ => rfl)
  | setData x r =>
    refine dead (fun sb hx => ?_)
    obtain ⟨m', e, hb, keep, _⟩ := deleteAllocated_contents i hx
    rw [Prog.bind_ok e]
    exact keep q (fun h0 => (hf h0 x sb rfl hx).resolve_left id)
  | parse x n r =>
    refine dead (fun sb hx => ?_)
    obtain ⟨m', e, hb, keep, _⟩ := deleteAllocated_contents i hx
    rw [Prog.bind_ok e]
    have := keep q (fun h0 => (hf h0 x sb rfl hx).resolve_left id)
    split
    · exact this
    · exact this
  | parseStream x n junk input =>
    refine dead (fun sb hx => ?_)
    by_cases hn : n = sb.data.len
    · obtain ⟨old, eo⟩ := Option.isSome_iff_exists.1 (i.readable x sb hx)
      obtain ⟨h', es, _, kp⟩ := Heap.store_contents eo (bs := input.take n) (by simp; omega)
      rw [if_neg (by simp [hn]), onHeap_store es]
      exact kp q (hs ⟨sb, hx, hn⟩ x sb rfl hx)
    · obtain ⟨m', e, hb, keep, _⟩ := deleteAllocated_contents i hx
      have k1 := keep q (fun h0 => (hf h0 x sb rfl hx).resolve_left (fun ⟨sb', hx', e'⟩ => by
        rw [hx] at hx'; cases hx'; exact hn e'))
      have hq' : (m'.heap.contents q).isSome := by rw [k1]; exact hq
      have k2 := Heap.alloc_keeps (List.replicate n junk) hq'
      have ea := Heap.alloc_contents (h := m'.heap) (List.replicate n junk)
      rw [List.length_replicate] at ea
      obtain ⟨h', es, _, kp⟩ := Heap.store_contents ea (bs := input.take n) (by simp; omega)
      rw [if_pos hn, Prog.bind_ok e]
      have er : (do
          let b ← Mem.onHeap (Heap.alloc (List.replicate n junk))
          Mem.setBuf x { ({ sb with allocated := none } : SBuf) with allocated := some b, data := ⟨b, 0, n⟩ }
          Mem.onHeap (Heap.store ⟨b, 0, n⟩ (input.take n)) : Prog Mem Unit) m' =
          (.ok (), ⟨h', m'.bufs.set x (some ⟨⟨m'.heap.blocks.length, 0, n⟩, some m'.heap.blocks.length⟩)⟩) :=
        onHeap_store (m := ⟨(Heap.alloc (List.replicate n junk) m'.heap).2, _⟩) es
      rw [er]
      refine (kp q ?_).trans (k2.trans k1)
      by_cases h0 : q.len = 0
      · exact .inl h0
      · refine .inr (.inl (fun eb => ?_))
        rcases (Heap.contents_isSome _ _).1 hq' with h | ⟨k, hk', _⟩
        · exact h0 h
        · have := hk'.lt; simp only at eb; omega
  | fill x r =>
    refine dead (fun sb hx => ?_)
    split
    · rfl
    · next hge =>
      obtain ⟨old, eo⟩ := Option.isSome_iff_exists.1 (i.readable x sb hx)
      obtain ⟨bs, e, hl⟩ := Heap.load_eq (readable_prefix (n := sb.data.len) hc (by omega))
      have hl' : bs.length = sb.data.len := hl
      have : Mem.onHeap (Heap.load ⟨r.block, r.off, sb.data.len⟩) m = (.ok bs, m) := by
        simp only [Mem.onHeap, Prog.zoom, e]
      obtain ⟨h', es, _, kp⟩ := Heap.store_contents eo (bs := bs) (by omega)
      rw [Prog.bind_ok this, onHeap_store es]
      exact kp q (hs trivial x sb rfl hx)
  | fillStream x input =>
    refine dead (fun sb hx => ?_)
    obtain ⟨old, eo⟩ := Option.isSome_iff_exists.1 (i.readable x sb hx)
    obtain ⟨h', es, _, kp⟩ := Heap.store_contents eo (bs := input.take sb.data.len) (by simp; omega)
    rw [onHeap_store es]
    exact kp q (hs trivial x sb rfl hx)
  | read x =>
    refine dead (fun sb hx => ?_)
    obtain ⟨bs, e, _⟩ := Heap.load_eq (i.readable x sb hx)
    have : Mem.onHeap (Heap.load sb.data) m = (.ok bs, m) := by
      simp only [Mem.onHeap, Prog.zoom, e]
    rw [Prog.bind_ok this]
    rfl
  | destroy x =>
    refine dead (fun sb hx => ?_)
    obtain ⟨m', e, hb, keep, _⟩ := deleteAllocated_contents i hx
    rw [Prog.bind_ok e]
    exact keep q (fun h0 => (hf h0 x sb rfl hx).resolve_left id)

/-- Raw buffers other than the one worked on refer to what they referred to before. -/
theorem others_step {m : Mem} (i : MemInv m) (op : BufOp) {y : Nat} {sy : SBuf} (hy : m.bufs[y]? = some (some sy))
    (ht : target op ≠ some y) : (op.run m).2.bufs[y]? = some (some sy) := by
  have dead : ∀ {x : Nat} {f : SBuf → Prog Mem Unit},
      (∀ sb, m.bufs[x]? = some (some sb) → (f sb m).2.bufs[y]? = some (some sy)) →
      (Mem.withBuf x f m).2.bufs[y]? = some (some sy) := by
    intro x f h
    unfold Mem.withBuf
    split
    · next sb e => exact h sb e
    · exact hy
  have hlt : y < m.bufs.length := (List.getElem?_eq_some_iff.1 hy).1
  have pushed : ∀ v, (m.bufs ++ [some v])[y]? = some (some sy) := fun v => by
    rw [List.getElem?_append_left hlt]; exact hy
  have setd : ∀ {x : Nat} {l : List (Option SBuf)} {v}, x ≠ y → l[y]? = some (some sy) → (l.set x v)[y]? = some (some sy) :=
    fun hne h => by rw [List.getElem?_set_ne hne]; exact h
  cases op with
  | alloc bs => exact hy
  | release b => exact hy
  | new => exact pushed _
  | newOn r => exact pushed _
  | copy x => exact dead (fun _ _ => pushed _)
  | assign x z => exact dead (fun src _ => dead (fun _ _ => setd (fun e => ht (by rw [← e]; rfl)) hy))
  | assignRef x r => exact dead (fun _ _ => setd (fun e => ht (by rw [← e]; rfl)) hy)
  | setData x r =>
    refine dead (fun sb hx => ?_)
    have hne : x ≠ y := fun e => ht (by rw [← e]; rfl)
    obtain ⟨m', e, hb, _, _⟩ := deleteAllocated_contents i hx
    rw [Prog.bind_ok e]
    exact setd hne (by rw [hb]; exact setd hne hy)
  | parse x n r =>
    refine dead (fun sb hx => ?_)
    have hne : x ≠ y := fun e => ht (by rw [← e]; rfl)
    obtain ⟨m', e, hb, _, _⟩ := deleteAllocated_contents i hx
    have hy' : m'.bufs[y]? = some (some sy) := by rw [hb]; exact setd hne hy
    rw [Prog.bind_ok e]
    split
    · exact hy'
    · exact setd hne hy'
  | parseStream x n junk input =>
    refine dead (fun sb hx => ?_)
    have hne : x ≠ y := fun e => ht (by rw [← e]; rfl)
    split
    · obtain ⟨m', e, hb, _, _⟩ := deleteAllocated_contents i hx
      have hy' : m'.bufs[y]? = some (some sy) := by rw [hb]; exact setd hne hy
      rw [Prog.bind_ok e]
      exact setd (l := m'.bufs) hne hy'
    · exact hy
  | fill x r =>
    refine dead (fun sb hx => ?_)
    split
    · exact hy
    · have hb := onHeap_bufs (Heap.load ⟨r.block, r.off, sb.data.len⟩) m
      rw [Prog.bind_def]
      unfold Prog.andThen
      generalize Mem.onHeap (Heap.load ⟨r.block, r.off, sb.data.len⟩) m = res at hb ⊢
      obtain ⟨res, m'⟩ := res
      have hy' : m'.bufs[y]? = some (some sy) := by
        have : m'.bufs = m.bufs := hb
        rw [this]; exact hy
      cases res <;> exact hy'
  | fillStream x input => exact dead (fun _ _ => hy)
  | read x =>
    refine dead (fun sb hx => ?_)
    have hb := onHeap_bufs (Heap.load sb.data) m
    rw [Prog.bind_def]
    unfold Prog.andThen
    generalize Mem.onHeap (Heap.load sb.data) m = res at hb ⊢
    obtain ⟨res, m'⟩ := res
    have hy' : m'.bufs[y]? = some (some sy) := by
      have : m'.bufs = m.bufs := hb
      rw [this]; exact hy
    cases res <;> exact hy'
  | destroy x =>
    refine dead (fun sb hx => ?_)
    have hne : x ≠ y := fun e => ht (by rw [← e]; rfl)
    obtain ⟨m', e, hb, _, _⟩ := deleteAllocated_contents i hx
    rw [Prog.bind_ok e]
    exact setd hne (by rw [hb]; exact setd hne hy)

/-- A careful user's history keeps the invariant. -/
theorem careful_inv (ops : List BufOp) : ∀ m, MemInv m → CarefulRun ops m → MemInv (runBufOps ops m).2 := by
  induction ops with
  | nil => intro m i _; exact i
  | cons op ops ih =>
    intro m i hc
    have h := careful_step i op hc.1
    have hc2 := hc.2
    unfold runBufOps
    generalize op.run m = r at h hc2 ⊢
    obtain ⟨res, m'⟩ := r
    cases res with
    | ok _ => exact ih m' h.2 hc2
    | throw _ => exact ih m' h.2 hc2
    | ub u => exact absurd rfl (h.1 u)

end Eip
