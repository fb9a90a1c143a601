import Verif.Model.Refs
import Verif.Lemmas.Uniform
/-
The reference-level parsers refine the value-level ones.
-/
namespace Eip
open Spec

/-- Map the value of a normal return. -/
def Res.map {α β : Type} (f : α → β) : Res α → Res β
  | .ok a => .ok (f a)
  | .throw e => .throw e
  | .ub u => .ub u

theorem Res.map_id {α : Type} (r : Res α) : r.map id = r := by cases r <;> rfl

/-! ### Parsers leave a suffix of their buffer -/

/-- On a buffer, `p` leaves a suffix of it. -/
def Shrinks {δ α : Type} (p : Prog (δ × Reader) α) : Prop :=
  ∀ (d : δ) (bs : Bytes) (c : Nat), ∃ k c', k ≤ bs.length ∧ (p (d, .buffer ⟨bs, c⟩)).2.2 = .buffer ⟨bs.drop k, c'⟩

theorem Shrinks.bind {δ α β : Type} {p : Prog (δ × Reader) α} {f : α → Prog (δ × Reader) β} (hp : Shrinks p)
    (hf : ∀ x, Shrinks (f x)) : Shrinks (p >>= f) := by
  intro d bs c
  obtain ⟨k, c', hk, e⟩ := hp d bs c
  rw [Prog.bind_def]
  unfold Prog.andThen
  generalize p (d, .buffer ⟨bs, c⟩) = r at e ⊢
  obtain ⟨res, d', r'⟩ := r
  cases e
  cases res with
  | ok a =>
    obtain ⟨k2, c2, hk2, e2⟩ := hf a d' (bs.drop k) c'
    refine ⟨k + k2, c2, ?_, ?_⟩
    · simp at hk2; omega
    · rw [← List.drop_drop]; exact e2
  | throw e => exact ⟨k, c', hk, rfl⟩
  | ub u => exact ⟨k, c', hk, rfl⟩

theorem Shrinks.getObj {δ : Type} : Shrinks (getObj : Prog (δ × Reader) δ) := fun _ _ c => ⟨0, c, Nat.zero_le _, rfl⟩
theorem Shrinks.pure {δ α : Type} (x : α) : Shrinks (Pure.pure x : Prog (δ × Reader) α) :=
  fun _ _ c => ⟨0, c, Nat.zero_le _, rfl⟩
theorem Shrinks.modifyObj {δ : Type} (f : δ → δ) : Shrinks (modifyObj f) := fun _ _ c => ⟨0, c, Nat.zero_le _, rfl⟩

theorem shrinks_readBuffer (n : Nat) (bs : Bytes) (c : Nat) :
    ∃ k c', k ≤ bs.length ∧ (BufferReader.readBuffer n ⟨bs, c⟩).2 = ⟨bs.drop k, c'⟩ := by
  unfold BufferReader.readBuffer
  split
  · exact ⟨0, c, Nat.zero_le _, rfl⟩
  · next h => exact ⟨n, c + n, by simpa using h, rfl⟩

theorem Shrinks.readInto {δ : Type} (old : Bytes) : Shrinks (onReader (Reader.readInto old) : Prog (δ × Reader) Bytes) := by
  intro d bs c
  obtain ⟨k, c', hk, e⟩ := shrinks_readBuffer old.length bs c
  exact ⟨k, c', hk, by simp only [onReader, Prog.zoom, Reader.readInto, e]⟩

theorem Shrinks.readLocal {δ : Type} (n : Nat) : Shrinks (onReader (Reader.readLocal n) : Prog (δ × Reader) Bytes) := by
  intro d bs c
  obtain ⟨k, c', hk, e⟩ := shrinks_readBuffer n bs c
  exact ⟨k, c', hk, by simp only [onReader, Prog.zoom, Reader.readLocal, e]⟩

theorem Shrinks.member {δ τ : Type} (cd : Codec τ) (getter : δ → τ) (setter : τ → δ → δ) :
    Shrinks (readMember cd getter setter) :=
  Shrinks.bind Shrinks.getObj (fun _ => Shrinks.bind (Shrinks.readInto _) (fun _ => Shrinks.modifyObj _))

theorem Shrinks.local8 {δ : Type} : Shrinks (readLocal8 : Prog (δ × Reader) UInt8) :=
  Shrinks.bind (Shrinks.readLocal _) (fun _ => Shrinks.pure _)
theorem Shrinks.local16 {δ : Type} : Shrinks (readLocal16 : Prog (δ × Reader) UInt16) :=
  Shrinks.bind (Shrinks.readLocal _) (fun _ => Shrinks.pure _)

theorem Shrinks.part {δ τ α : Type} (getter : δ → τ) (setter : τ → δ → δ) {p : Prog (τ × Reader) α} (h : Shrinks p) :
    Shrinks (onPart getter setter p) := by
  intro d bs c
  obtain ⟨k, c', hk, e⟩ := h (getter d) bs c
  exact ⟨k, c', hk, by simp only [onPart, Prog.zoom, e]⟩

theorem Shrinks.header : Shrinks EncapHeader.deserialize :=
  Shrinks.bind (Shrinks.member _ _ _) (fun _ => Shrinks.bind (Shrinks.member _ _ _) (fun _ => Shrinks.bind (Shrinks.member _ _ _)
    (fun _ => Shrinks.bind (Shrinks.member _ _ _) (fun _ => Shrinks.bind (Shrinks.member _ _ _) (fun _ => Shrinks.member _ _ _)))))

/-! ### Parsers on an object and on a view of it -/

/-- `p` does to the view `V d` what `p'` does to `d`. -/
def Maps {δ δ' α : Type} (V : δ' → δ) (p : Prog (δ × Reader) α) (p' : Prog (δ' × Reader) α) : Prop :=
  ∀ d r, p (V d, r) = ((p' (d, r)).1, (V (p' (d, r)).2.1, (p' (d, r)).2.2))

theorem Maps.member {δ δ' τ : Type} {V : δ' → δ} (cd : Codec τ) {g : δ → τ} {s : τ → δ → δ} {g' : δ' → τ}
    {s' : τ → δ' → δ'} (hg : ∀ d, g (V d) = g' d) (hs : ∀ v d, s v (V d) = V (s' v d)) :
    Maps V (readMember cd g s) (readMember cd g' s') := by
  intro d r
  simp only [readMember, Prog.bind_def, Prog.andThen, getObj, onReader, Prog.zoom, modifyObj, hg]
  cases Reader.readInto (cd.enc (g' d)) r with
  | mk res r' => cases res <;> simp [hs]

theorem Maps.onReader {δ δ' α : Type} {V : δ' → δ} (p : Prog Reader α) :
    Maps V (onReader p : Prog (δ × Reader) α) (onReader p) := fun _ _ => rfl

theorem Maps.local8 {δ δ' : Type} {V : δ' → δ} : Maps V (readLocal8 : Prog (δ × Reader) UInt8) readLocal8 := by
  intro d r
  simp only [readLocal8, Prog.bind_def, Prog.andThen, Eip.onReader, Prog.zoom, Prog.pure_apply]
  cases Reader.readLocal 1 r with
  | mk res r' => cases res <;> rfl

theorem Maps.local16 {δ δ' : Type} {V : δ' → δ} : Maps V (readLocal16 : Prog (δ × Reader) UInt16) readLocal16 := by
  intro d r
  simp only [readLocal16, Prog.bind_def, Prog.andThen, Eip.onReader, Prog.zoom, Prog.pure_apply]
  cases Reader.readLocal 2 r with
  | mk res r' => cases res <;> rfl

theorem Maps.part {δ δ' τ α : Type} {V : δ' → δ} {g : δ → τ} {s : τ → δ → δ} {g' : δ' → τ}
    {s' : τ → δ' → δ'} (p : Prog (τ × Reader) α) (hg : ∀ d, g (V d) = g' d) (hs : ∀ v d, s v (V d) = V (s' v d)) :
    Maps V (onPart g s p) (onPart g' s' p) := by
  intro d r
  simp only [onPart, Prog.zoom, hg, hs]

/-! ### Simulation -/

/-- The reader stays inside its memory. -/
def RefReader.InRange (r : RefReader) : Prop := r.buf.off + r.buf.len ≤ r.mem.length

/-- Over memory `mem`, running `p` at value level is running `q` at reference level and looking at the values. -/
def Sim (mem : Bytes) {δ δ' α α' : Type} (V : δ' → δ) (F : α' → α) (p : Prog (δ × Reader) α)
    (q : Prog (δ' × RefReader) α') : Prop :=
  ∀ (d : δ') (r : RefReader), r.mem = mem → r.InRange →
    p (V d, .buffer r.value) = ((q (d, r)).1.map F, (V (q (d, r)).2.1, .buffer (q (d, r)).2.2.value)) ∧
    (q (d, r)).2.2.mem = mem ∧ (q (d, r)).2.2.InRange

theorem Sim.bind {mem : Bytes} {δ δ' α α' β β' : Type} {V : δ' → δ} {F : α' → α} {G : β' → β}
    {p : Prog (δ × Reader) α} {q : Prog (δ' × RefReader) α'} {f : α → Prog (δ × Reader) β}
    {g : α' → Prog (δ' × RefReader) β'} (h : Sim mem V F p q) (hf : ∀ a, Sim mem V G (f (F a)) (g a)) :
    Sim mem V G (p >>= f) (q >>= g) := by
  intro d r hm hr
  obtain ⟨e, hm', hr'⟩ := h d r hm hr
  rw [Prog.bind_def, Prog.bind_def]
  unfold Prog.andThen
  rw [e]
  generalize q (d, r) = s at hm' hr' ⊢
  obtain ⟨res, d', r'⟩ := s
  cases res with
  | ok a => exact hf a d' r' hm' hr'
  | throw e => exact ⟨rfl, hm', hr'⟩
  | ub u => exact ⟨rfl, hm', hr'⟩

theorem Sim.pure {mem : Bytes} {δ δ' α α' : Type} {V : δ' → δ} {F : α' → α} (x : α') :
    Sim mem V F (pure (F x) : Prog (δ × Reader) α) (pure x) := fun _ _ hm hr => ⟨rfl, hm, hr⟩

theorem Sim.raise {mem : Bytes} {δ δ' α α' : Type} {V : δ' → δ} {F : α' → α} (e : Exn) :
    Sim mem V F (Prog.raise e : Prog (δ × Reader) α) (Prog.raise e) := fun _ _ hm hr => ⟨rfl, hm, hr⟩

theorem Sim.modify {mem : Bytes} {δ δ' : Type} {V : δ' → δ} {f : δ → δ} {f' : δ' → δ'} (h : ∀ d, f (V d) = V (f' d)) :
    Sim mem V id (modifyObj f) (modifyRefObj f') := fun d _ hm hr => ⟨by simp [modifyObj, modifyRefObj, Res.map, h], hm, hr⟩

theorem Sim.get {mem : Bytes} {δ δ' : Type} {V : δ' → δ} : Sim mem V V getObj getRefObj := fun _ _ hm hr => ⟨rfl, hm, hr⟩

theorem Sim.count {mem : Bytes} {δ δ' : Type} {V : δ' → δ} :
    Sim mem V id (fun s => (.ok s.2.getByteCount, s) : Prog (δ × Reader) Nat) (fun s => (.ok s.2.byteCount, s)) :=
  fun _ _ hm hr => ⟨rfl, hm, hr⟩

theorem Sim.plain {mem : Bytes} {δ δ' α : Type} {V : δ' → δ} {p : Prog (δ × Reader) α} {p' : Prog (δ' × Reader) α}
    (h : Maps V p p') (hs : Shrinks p') : Sim mem V id p (Eip.plain p') := by
  intro d r hm hr
  have hv : r.value = ⟨r.buf.bytes r.mem, r.byteCount⟩ := rfl
  obtain ⟨k, c', hk, e⟩ := hs d (r.buf.bytes r.mem) r.byteCount
  have h' := h d (.buffer r.value)
  unfold Eip.plain
  simp only
  rw [h']
  rw [← hv] at e
  generalize p' (d, .buffer r.value) = s at e ⊢
  obtain ⟨res, d', r'⟩ := s
  cases e
  have hl : (r.buf.bytes r.mem).length = r.buf.len := by
    unfold RefReader.InRange at hr
    simp [Slice.bytes]; omega
  rw [hl] at hk
  have hd : r.buf.len - ((r.buf.bytes r.mem).drop k).length = k := by
    rw [List.length_drop, hl]; omega
  refine ⟨?_, hm, ?_⟩
  · simp only [Res.map_id, RefReader.value, Slice.bytes] at *
    rw [hd]
    congr 3
    rw [BufferReader.mk.injEq]
    refine ⟨?_, rfl⟩
    rw [List.drop_take, List.drop_drop, List.length_take, List.length_drop]
    unfold RefReader.InRange at hr
    rw [show min (r.buf.len - k) (r.mem.length - (r.buf.off + k)) = r.buf.len - k by omega]
  · simp only [RefReader.InRange] at *
    rw [hd, List.length_drop, hl]; omega

theorem Sim.newBuffer {mem : Bytes} {δ δ' : Type} {V : δ' → δ} (n : Nat) :
    Sim mem V (fun s => SerializableBuffer.mk (s.bytes mem)) (readNewBuffer n : Prog (δ × Reader) SerializableBuffer)
      (readNewSlice n) := by
  intro d r hm hr
  subst hm
  have hl : (r.buf.bytes r.mem).length = r.buf.len := by
    unfold RefReader.InRange at hr
    simp [Slice.bytes]; omega
  unfold readNewBuffer parseFresh readNewSlice
  simp only [SerializableBuffer.deserializeLen, BufferReader.readBuffer, RefReader.value, hl]
  by_cases h : r.buf.len < n
  · rw [if_pos h, if_pos h]
    exact ⟨rfl, rfl, hr⟩
  · rw [if_neg h, if_neg h]
    refine ⟨?_, rfl, ?_⟩
    · simp only [Res.map, Slice.bytes]
      rw [List.take_take, Nat.min_eq_left (by omega), List.drop_take, List.drop_drop]
    · simp only [RefReader.InRange] at *; omega

theorem Sim.fresh {mem : Bytes} {δ δ' τ τ' : Type} {V : δ' → δ} {W : τ' → τ} {p : Prog (τ × Reader) Unit}
    {q : Prog (τ' × RefReader) Unit} (t : τ') (h : Sim mem W id p q) :
    Sim mem V W (parseFresh (W t) p) (parseFreshRef t q) := by
  intro d r hm hr
  obtain ⟨e, hm', hr'⟩ := h t r hm hr
  unfold parseFresh parseFreshRef
  simp only
  rw [e]
  generalize q (t, r) = s at hm' hr' ⊢
  obtain ⟨res, d', r'⟩ := s
  cases res <;> exact ⟨rfl, hm', hr'⟩

theorem Sim.ite {mem : Bytes} {δ δ' α α' : Type} {V : δ' → δ} {F : α' → α} {c : Prop} [Decidable c]
    {p p' : Prog (δ × Reader) α} {q q' : Prog (δ' × RefReader) α'} (h : Sim mem V F p q) (h' : Sim mem V F p' q') :
    Sim mem V F (if c then p else p') (if c then q else q') := by
  split
  · exact h
  · exact h'

/-! ### The classes -/

theorem ItemRef.sim (mem : Bytes) : Sim mem (ItemRef.value mem) id CPFItem.deserialize ItemRef.deserialize := by
  refine Sim.bind (Sim.plain (Maps.member .u16 (fun _ => rfl) (fun _ _ => rfl)) (Shrinks.member _ _ _)) (fun _ => ?_)
  refine Sim.bind (Sim.plain Maps.local16 Shrinks.local16) (fun n => ?_)
  unfold CPFItem.deserializeData
  refine Sim.ite ?_ (Sim.modify (fun _ => rfl))
  refine Sim.bind (Sim.modify (fun _ => by simp [ItemRef.value, Slice.obj, Slice.bytes, SerializableBuffer.empty])) (fun _ => ?_)
  exact Sim.bind (Sim.newBuffer _) (fun _ => Sim.modify (fun _ => rfl))

theorem PacketRef.simItems (mem : Bytes) : ∀ n, Sim mem (PacketRef.value mem) id (CPFPacket.deserializeItems n)
    (PacketRef.deserializeItems n)
  | 0 => Sim.pure ()
  | n + 1 => by
    refine Sim.bind (F := ItemRef.value mem) (Sim.fresh (W := ItemRef.value mem) ⟨itemNull, none⟩ (ItemRef.sim mem)) (fun i => ?_)
    refine Sim.bind (Sim.modify (fun _ => by simp [PacketRef.value])) (fun _ => PacketRef.simItems mem n)

theorem PacketRef.sim (mem : Bytes) : Sim mem (PacketRef.value mem) id CPFPacket.deserialize PacketRef.deserialize := by
  refine Sim.bind (Sim.modify (fun _ => by simp [PacketRef.value])) (fun _ => ?_)
  exact Sim.bind (Sim.plain Maps.local16 Shrinks.local16) (fun n => PacketRef.simItems mem _)

theorem EncapRef.sim (mem : Bytes) (n : Nat) : Sim mem (EncapRef.value mem) id (EncapPacket.deserializeSized n)
    (EncapRef.deserializeSized n) := by
  refine Sim.bind Sim.get (fun p0 => ?_)
  refine Sim.ite (Sim.raise _) ?_
  refine Sim.bind (Sim.plain (Maps.part _ (fun _ => rfl) (fun _ _ => rfl)) (Shrinks.part _ _ Shrinks.header)) (fun _ => ?_)
  refine Sim.bind Sim.get (fun p => ?_)
  refine Sim.ite (Sim.raise _) (Sim.ite ?_ (Sim.modify (fun _ => rfl)))
  refine Sim.bind (Sim.modify (fun _ => by simp [EncapRef.value, Slice.obj, Slice.bytes, SerializableBuffer.empty])) (fun _ => ?_)
  exact Sim.bind (Sim.newBuffer _) (fun _ => Sim.modify (fun _ => rfl))

theorem ResponseRef.simData {δ δ' : Type} {V : δ' → δ} (mem : Bytes) (n : Int) :
    Sim mem V (Option.map (Slice.obj mem)) (MessageRouterResponse.readData n) (ResponseRef.readData n) := by
  refine Sim.ite ?_ (Sim.pure (F := Option.map (Slice.obj mem)) none)
  exact Sim.bind (Sim.newBuffer _) (fun s => Sim.pure (F := Option.map (Slice.obj mem)) (some s))

theorem ResponseRef.sim (mem : Bytes) (n : Nat) : Sim mem (ResponseRef.value mem) id (MessageRouterResponse.deserializeSized n)
    (ResponseRef.deserializeSized n) := by
  refine Sim.bind (Sim.plain (Maps.member .u8 (fun _ => rfl) (fun _ _ => rfl)) (Shrinks.member _ _ _)) (fun _ => ?_)
  refine Sim.bind (Sim.plain (Maps.member .u8 (fun _ => rfl) (fun _ _ => rfl)) (Shrinks.member _ _ _)) (fun _ => ?_)
  refine Sim.bind (Sim.plain (Maps.member .u8 (fun _ => rfl) (fun _ _ => rfl)) (Shrinks.member _ _ _)) (fun _ => ?_)
  refine Sim.bind (Sim.plain Maps.local8 Shrinks.local8) (fun k => ?_)
  refine Sim.bind (ResponseRef.simData mem _) (fun a => ?_)
  refine Sim.bind (Sim.modify (fun _ => rfl)) (fun _ => ?_)
  refine Sim.bind Sim.count (fun c => ?_)
  exact Sim.bind (ResponseRef.simData mem _) (fun d => Sim.modify (fun _ => rfl))

end Eip
