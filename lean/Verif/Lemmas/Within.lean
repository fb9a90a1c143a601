import Verif.Lemmas.Refs
import Verif.Spec.Memory
/-
The references in a parsed object stay inside the memory that was parsed.
-/
namespace Eip
open Spec

/-- The slice lies inside `mem`. -/
def Slice.Within (mem : Bytes) (s : Slice) : Prop := s.off + s.len ≤ mem.length

/-- Over memory `mem`, `q` stays inside it, keeps `K` of its object and returns only values with `R`. -/
def Bounded (mem : Bytes) {δ α : Type} (K : δ → Prop) (R : α → Prop) (q : Prog (δ × RefReader) α) : Prop :=
  ∀ (d : δ) (r : RefReader), r.mem = mem → r.InRange → K d →
    (q (d, r)).2.2.mem = mem ∧ (q (d, r)).2.2.InRange ∧ K (q (d, r)).2.1 ∧ ∀ x, (q (d, r)).1 = .ok x → R x

namespace Bounded
variable {mem : Bytes} {δ τ α β : Type} {K : δ → Prop} {R : α → Prop} {T : β → Prop}

theorem bind {q : Prog (δ × RefReader) α} {f : α → Prog (δ × RefReader) β} (h : Bounded mem K R q)
    (hf : ∀ x, R x → Bounded mem K T (f x)) : Bounded mem K T (q >>= f) := by
  intro d r hm hr hk
  obtain ⟨h1, h2, h3, h4⟩ := h d r hm hr hk
  rw [Prog.bind_def]
  unfold Prog.andThen
  generalize q (d, r) = res at h1 h2 h3 h4 ⊢
  obtain ⟨x, d', r'⟩ := res
  cases x with
  | ok x => exact hf x (h4 x rfl) d' r' h1 h2 h3
  | throw e => exact ⟨h1, h2, h3, fun _ e => nomatch e⟩
  | ub e => exact ⟨h1, h2, h3, fun _ e => nomatch e⟩

theorem pure {x : α} (h : R x) : Bounded mem K R (Pure.pure x : Prog (δ × RefReader) α) :=
  fun _ _ hm hr hk => ⟨hm, hr, hk, fun _ e => by cases e; exact h⟩

theorem raise (e : Exn) : Bounded mem K R (Prog.raise e : Prog (δ × RefReader) α) :=
  fun _ _ hm hr hk => ⟨hm, hr, hk, fun _ e => nomatch e⟩

theorem get : Bounded mem K (fun _ => True) (getRefObj : Prog (δ × RefReader) δ) :=
  fun _ _ hm hr hk => ⟨hm, hr, hk, fun _ _ => trivial⟩

theorem count : Bounded mem K (fun _ => True) (fun s => (.ok s.2.byteCount, s) : Prog (δ × RefReader) Nat) :=
  fun _ _ hm hr hk => ⟨hm, hr, hk, fun _ _ => trivial⟩

theorem modify {f : δ → δ} (h : ∀ d, K d → K (f d)) : Bounded mem K (fun _ => True) (modifyRefObj f) :=
  fun d _ hm hr hk => ⟨hm, hr, h d hk, fun _ _ => trivial⟩

theorem slice (n : Nat) : Bounded mem K (Slice.Within mem) (readNewSlice n : Prog (δ × RefReader) Slice) := by
  intro d r hm hr hk
  subst hm
  simp only [readNewSlice, RefReader.InRange] at *
  split
  · exact ⟨rfl, hr, hk, fun _ e => nomatch e⟩
  · refine ⟨rfl, ?_, hk, fun _ e => ?_⟩
    · simp only; omega
    · cases e; simp only [Slice.Within]; omega

theorem plain {p : Prog (δ × Reader) α} (hs : Shrinks p) (hk : ∀ d rd, K d → K (p (d, rd)).2.1) :
    Bounded mem K (fun _ => True) (Eip.plain p) := by
  intro d r hm hr hd
  obtain ⟨-, h1, h2⟩ := Sim.plain (mem := mem) (V := id) (p := p) (fun d r => by simp) hs d r hm hr
  refine ⟨h1, h2, ?_, fun _ _ => trivial⟩
  have := hk d (.buffer r.value) hd
  simp only [Eip.plain]
  generalize p (d, .buffer r.value) = res at this ⊢
  obtain ⟨x, d', (b | s)⟩ := res <;> exact this

theorem member {τ : Type} (c : Codec τ) (g : δ → τ) (s : τ → δ → δ) (h : ∀ v d, K d → K (s v d)) :
    Bounded mem K (fun _ => True) (Eip.plain (readMember c g s)) := by
  refine plain (Shrinks.member _ _ _) (fun d rd hd => ?_)
  simp only [readMember, Prog.bind_def, Prog.andThen, getObj, onReader, Prog.zoom, modifyObj]
  generalize Reader.readInto (c.enc (g d)) rd = res
  obtain ⟨(_ | _ | _), _⟩ := res
  · exact h _ _ hd
  · exact hd
  · exact hd

theorem local8 : Bounded mem K (fun _ => True) (Eip.plain readLocal8 : Prog (δ × RefReader) UInt8) := by
  refine plain Shrinks.local8 (fun d rd hd => ?_)
  simp only [readLocal8, Prog.bind_def, Prog.andThen, onReader, Prog.zoom]
  generalize Reader.readLocal 1 rd = res
  obtain ⟨(_ | _ | _), _⟩ := res <;> exact hd

theorem local16 : Bounded mem K (fun _ => True) (Eip.plain readLocal16 : Prog (δ × RefReader) UInt16) := by
  refine plain Shrinks.local16 (fun d rd hd => ?_)
  simp only [readLocal16, Prog.bind_def, Prog.andThen, onReader, Prog.zoom]
  generalize Reader.readLocal 2 rd = res
  obtain ⟨(_ | _ | _), _⟩ := res <;> exact hd

theorem fresh {t : τ} {q : Prog (τ × RefReader) Unit} {J : τ → Prop} (h : Bounded mem J (fun _ => True) q) (ht : J t) :
    Bounded mem K J (parseFreshRef t q : Prog (δ × RefReader) τ) := by
  intro d r hm hr hk
  obtain ⟨h1, h2, h3, -⟩ := h t r hm hr ht
  simp only [parseFreshRef]
  generalize q (t, r) = res at h1 h2 h3 ⊢
  obtain ⟨(_ | _ | _), t', r'⟩ := res
  · exact ⟨h1, h2, hk, fun _ e => by cases e; exact h3⟩
  · exact ⟨h1, h2, hk, fun _ e => nomatch e⟩
  · exact ⟨h1, h2, hk, fun _ e => nomatch e⟩

end Bounded

/-! ### The classes -/

theorem ItemRef.bounded (mem : Bytes) :
    Bounded mem (fun i : ItemRef => ∀ s ∈ i.data.toList, s.Within mem) (fun _ => True) ItemRef.deserialize := by
  refine Bounded.bind (Bounded.member _ _ _ (fun _ _ h => h)) (fun _ _ => ?_)
  refine Bounded.bind Bounded.local16 (fun n _ => ?_)
  split
  · refine Bounded.bind (Bounded.modify (fun _ _ => by simp [Slice.Within])) (fun _ _ => ?_)
    exact Bounded.bind (Bounded.slice _) (fun s hs => Bounded.modify (fun _ _ => by simpa using hs))
  · exact Bounded.modify (fun _ _ => by simp)

theorem PacketRef.boundedItems (mem : Bytes) : ∀ n,
    Bounded mem (fun p : PacketRef => ∀ i ∈ p.items, ∀ s ∈ i.data.toList, s.Within mem) (fun _ => True)
      (PacketRef.deserializeItems n)
  | 0 => Bounded.pure trivial
  | n + 1 => by
    refine Bounded.bind (Bounded.fresh (ItemRef.bounded mem) (by simp)) (fun i hi => ?_)
    refine Bounded.bind (Bounded.modify (fun p hp => ?_)) (fun _ _ => PacketRef.boundedItems mem n)
    intro j hj
    rcases List.mem_append.1 hj with hj | hj
    · exact hp j hj
    · rw [List.mem_singleton.1 hj]; exact hi

theorem PacketRef.bounded (mem : Bytes) :
    Bounded mem (fun p : PacketRef => ∀ s ∈ p.slices, s.Within mem) (fun _ => True) PacketRef.deserialize := by
  have h : Bounded mem (fun p : PacketRef => ∀ i ∈ p.items, ∀ s ∈ i.data.toList, s.Within mem) (fun _ => True)
      PacketRef.deserialize :=
    Bounded.bind (Bounded.modify (fun _ _ => by simp)) (fun _ _ =>
      Bounded.bind Bounded.local16 (fun n _ => PacketRef.boundedItems mem _))
  have key : ∀ p : PacketRef, (∀ i ∈ p.items, ∀ s ∈ i.data.toList, s.Within mem) ↔ ∀ s ∈ p.slices, s.Within mem := by
    intro p
    simp only [PacketRef.slices, List.mem_filterMap, Option.mem_toList]
    exact ⟨fun h s ⟨i, hi, hs⟩ => h i hi s hs, fun h i hi s hs => h s ⟨i, hi, hs⟩⟩
  intro d r hm hr hk
  obtain ⟨h1, h2, h3, h4⟩ := h d r hm hr ((key d).2 hk)
  exact ⟨h1, h2, (key _).1 h3, h4⟩

theorem EncapRef.bounded (mem : Bytes) (n : Nat) :
    Bounded mem (fun p : EncapRef => ∀ s ∈ p.slices, s.Within mem) (fun _ => True) (EncapRef.deserializeSized n) := by
  refine Bounded.bind Bounded.get (fun p0 _ => ?_)
  split
  · exact Bounded.raise _
  · refine Bounded.bind (Bounded.plain (Shrinks.part _ _ Shrinks.header) (fun d rd hd => ?_)) (fun _ _ => ?_)
    · exact hd
    refine Bounded.bind Bounded.get (fun p _ => ?_)
    split
    · exact Bounded.raise _
    · split
      · refine Bounded.bind (Bounded.modify (fun _ _ => by simp [Slice.Within, EncapRef.slices])) (fun _ _ => ?_)
        exact Bounded.bind (Bounded.slice _) (fun s hs => Bounded.modify (fun _ _ => by simpa [EncapRef.slices] using hs))
      · exact Bounded.modify (fun _ _ => by simp [EncapRef.slices])

theorem ResponseRef.boundedData {δ : Type} {K : δ → Prop} (mem : Bytes) (n : Int) :
    Bounded mem K (fun o => ∀ s ∈ o.toList, s.Within mem) (ResponseRef.readData n : Prog (δ × RefReader) (Option Slice)) := by
  unfold ResponseRef.readData
  split
  · exact Bounded.bind (Bounded.slice _) (fun s hs => Bounded.pure (by simpa using hs))
  · exact Bounded.pure (by simp)

theorem ResponseRef.bounded (mem : Bytes) (n : Nat) :
    Bounded mem (fun p : ResponseRef => ∀ s ∈ p.slices, s.Within mem) (fun _ => True) (ResponseRef.deserializeSized n) := by
  refine Bounded.bind (Bounded.member _ _ _ (fun _ _ h => h)) (fun _ _ => ?_)
  refine Bounded.bind (Bounded.member _ _ _ (fun _ _ h => h)) (fun _ _ => ?_)
  refine Bounded.bind (Bounded.member _ _ _ (fun _ _ h => h)) (fun _ _ => ?_)
  refine Bounded.bind Bounded.local8 (fun _ _ => ?_)
  refine Bounded.bind (ResponseRef.boundedData mem _) (fun a ha => ?_)
  refine Bounded.bind (Bounded.modify (fun p hp => ?_)) (fun _ _ => ?_)
  · intro s hs
    rcases List.mem_append.1 hs with hs | hs
    · exact ha s hs
    · exact hp s (List.mem_append_right _ hs)
  refine Bounded.bind Bounded.count (fun _ _ => ?_)
  refine Bounded.bind (ResponseRef.boundedData mem _) (fun a ha => Bounded.modify (fun p hp => ?_))
  intro s hs
  rcases List.mem_append.1 hs with hs | hs
  · exact hp s (List.mem_append_left _ hs)
  · exact ha s hs

end Eip
