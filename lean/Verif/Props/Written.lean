import Verif.Props.StreamCalls
/-
C119: output streams that do not take everything.
-/
namespace Eip
open Spec

/-- Write objects to the same writer, one after the other. -/
def serializeAll : List Obj → Prog Writer Unit
  | [] => pure ()
  | o :: os => do
    o.serialize
    serializeAll os

private theorem serializeAll_writes {l : List (Obj × Bytes)} (h : ∀ x ∈ l, Writes x.1.serialize x.2) :
    Writes (serializeAll (l.map (·.1))) (l.map (·.2)).flatten := by
  induction l with
  | nil => exact Writes.nil
  | cons x l ih => exact Writes.bind (h x (by simp)) (ih fun y hy => h y (by simp [hy]))

/-- C119 does not hold: an object written to a stream that has room for only a part of it is cut off, and the call returns
normally, where a buffer writer throws `length_error` for the same room. -/
theorem c119_violated (o : Obj) (bs : Bytes) (h : Encodes o bs) (before room : Bytes) (short : room.length < bs.length) :
    o.serialize (.stream ⟨before, some room.length, true⟩) =
      (.ok (), .stream ⟨before ++ bs.take room.length, some 0, false⟩) ∧
    ∃ what w, o.serialize (.buffer (BufferWriter.new room)) = (.throw (lengthError what), w) := by
  refine ⟨?_, ?_⟩
  · rw [h.writes.stream]
    have h2 : ¬ bs.length ≤ room.length := by omega
    simp only [appended, h2, Nat.sub_eq_zero_of_le (Nat.le_of_lt short), decide_false]
  · obtain ⟨what, w', k, e, _⟩ := h.writes.full (BufferWriter.new room) short
    exact ⟨what, _, e⟩

/-- The byte count is no number of bytes written either: it includes what was on the stream before, and after a failure it
is the largest `size_t`. -/
theorem c119_violated_count (o : Obj) (bs : Bytes) (h : Encodes o bs) (w : StreamWriter) :
    (HasRoom w bs → (o.serialize (.stream w)).2.getByteCount = w.out.length + bs.length) ∧
    (¬ HasRoom w bs → (o.serialize (.stream w)).2.getByteCount = 18446744073709551615) := by
  rw [h.writes.stream]
  refine ⟨fun t => ?_, fun t => ?_⟩
  · rw [t.appended]; simp [Writer.getByteCount, StreamWriter.getByteCount]
  · obtain ⟨out, room, good⟩ := w
    have : (appended ⟨out, room, good⟩ bs).good = false := by
      cases good with
      | false => rfl
      | true =>
        cases room with
        | none => exact absurd ⟨rfl, nofun⟩ t
        | some n =>
          have : ¬ bs.length ≤ n := fun hn => t ⟨rfl, fun m hm => by cases hm; exact hn⟩
          simp [appended, this]
    simp only [Writer.getByteCount, StreamWriter.getByteCount, this, Bool.false_eq_true, if_false]

/-- C119, as far as it holds: whatever objects are written to a stream one after the other, no call throws, and the stream
gets their bytes in order, without a gap, up to the point where it is full. If there is room, it gets them all. What is
missing: an exception if there is none. -/
theorem c119_prefix_partial (l : List (Obj × Bytes)) (h : ∀ x ∈ l, Writes x.1.serialize x.2) (w : StreamWriter) :
    ∃ w', serializeAll (l.map (·.1)) (.stream w) = (.ok (), .stream w') ∧
      (HasRoom w (l.map (·.2)).flatten → w'.out = w.out ++ (l.map (·.2)).flatten ∧ w'.good = true) ∧
      (¬ HasRoom w (l.map (·.2)).flatten → w'.good = false) ∧
      (w.good = false → w' = w) ∧
      (∀ n, w.good = true → w.room = some n → w'.out = w.out ++ (l.map (·.2)).flatten.take n) := by
  refine ⟨_, (serializeAll_writes h).stream w, fun t => ?_, fun t => ?_, fun b => ?_, fun n g e => ?_⟩
  · rw [t.appended]; exact ⟨rfl, rfl⟩
  · obtain ⟨out, room, good⟩ := w
    cases good with
    | false => rfl
    | true =>
      cases room with
      | none => exact absurd ⟨rfl, nofun⟩ t
      | some n =>
        have : ¬ (l.map (·.2)).flatten.length ≤ n := fun hn => t ⟨rfl, fun m hm => by cases hm; exact hn⟩
        simp only [appended, this, decide_false]
  · obtain ⟨out, room, good⟩ := w
    cases b
    rfl
  · obtain ⟨out, room, good⟩ := w
    cases g; cases e
    rfl

/-- Two objects of four bytes each, on a stream with room for six bytes after one that is there already. -/
example : let d : Obj := RegisterSessionData.obj ⟨1, 2⟩
    Encodes d [1, 0, 2, 0] ∧
    serializeAll [d, d] (.stream ⟨[9], some 6, true⟩) = (.ok (), .stream ⟨[9, 1, 0, 2, 0, 1, 0], some 0, false⟩) :=
  ⟨RegisterSessionData.encodes _, by decide⟩

end Eip
