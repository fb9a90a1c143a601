import Verif.Lemmas.LogOnly
import Verif.Lemmas.Digits
/-
How long the lines of the log are.
-/
namespace Eip
open Spec

/-- Room for an argument that is shown as a string. -/
def Arg.room : Arg → Nat
  | .str s => s.utf8ByteSize
  | .chars bs => bs.length
  | _ => 0

/-- Room for what a format and arguments show: 20 characters for a number. -/
def roomFor : List Piece → List Arg → Nat
  | [], _ => 0
  | .text t :: ps, as => t.utf8ByteSize + roomFor ps as
  | .conv _ :: _, [] => 0
  | .conv .s :: ps, a :: as => a.room + roomFor ps as
  | .conv _ :: ps, _ :: as => 20 + roomFor ps as

/-- Room for a message. -/
def LogMsg.room (m : LogMsg) : Nat := roomFor m.call.1 m.call.2

theorem utf8_length (s : String) : (utf8 s).length = s.utf8ByteSize := rfl

theorem dec_length {n : Int} (h : n.natAbs < 2 ^ 64) (hs : n < 0 → n.natAbs < 10 ^ 19) : (Shown.dec n).bytes.length ≤ 20 := by
  rw [Shown.bytes]
  split
  · next h0 =>
    have := digits_length (base := 10) (by omega) 18 n.natAbs (hs h0)
    simp only [List.length_cons]
    omega
  · have h1 : n.natAbs < 10 ^ 20 := Nat.lt_of_lt_of_le h (by decide)
    exact digits_length (base := 10) (by omega) 19 n.natAbs h1

theorem hex_length {n : Nat} (h : n < 2 ^ 32) : (Shown.hex n).bytes.length = 8 := by
  have h1 : n < 16 ^ (7 + 1) := Nat.lt_of_lt_of_le h (by decide)
  have := digits_length (base := 16) (by omega) 7 n h1
  rw [Shown.bytes, List.length_append, List.length_replicate]
  omega

theorem Frame.slot_lt (f : Frame) (i : Nat) (a : Arg) : f.slot i a < 2 ^ 64 := by
  cases a with
  | word v =>
    have h1 := v.toNat_lt
    have h2 := (f.upper i).toNat_lt
    simp only [Frame.slot]
    omega
  | size v => exact v.toNat_lt
  | str s => exact (f.address i).toNat_lt
  | chars b => exact (f.address i).toNat_lt

theorem takeWhile_length {α : Type} (p : α → Bool) (l : List α) : (l.takeWhile p).length ≤ l.length :=
  (List.takeWhile_sublist p).length_le

theorem Conv.show_length {f : Frame} {i : Nat} {c : Conv} {a : Arg} {x : Shown} (h : c.show f i a = some x) (ps : List Piece)
    (as : List Arg) : x.bytes.length + roomFor ps as ≤ roomFor (.conv c :: ps) (a :: as) := by
  have hl := f.slot_lt i a
  cases c with
  | d =>
    cases h
    have : (Shown.dec (signed32 (f.slot i a))).bytes.length ≤ 20 := by
      refine dec_length ?_ ?_ <;> rw [signed32] <;> split <;> omega
    exact Nat.add_le_add_right this _
  | u =>
    cases h
    have : (Shown.dec ((f.slot i a % 2 ^ 32 : Nat) : Int)).bytes.length ≤ 20 := dec_length (by omega) (by omega)
    exact Nat.add_le_add_right this _
  | zu =>
    cases h
    have : (Shown.dec ((f.slot i a : Nat) : Int)).bytes.length ≤ 20 := dec_length (by omega) (by omega)
    exact Nat.add_le_add_right this _
  | x =>
    cases h
    have := hex_length (Nat.mod_lt (f.slot i a) (show 0 < 2 ^ 32 by omega))
    exact Nat.add_le_add_right (by omega) _
  | s =>
    cases a with
    | str s =>
      cases h
      exact Nat.le_refl _
    | chars b =>
      cases h
      exact Nat.add_le_add_right (takeWhile_length _ _) _
    | word v => cases h
    | size v => cases h

theorem format_length {f : Frame} {ps : List Piece} : ∀ {i : Nat} {as : List Arg} {shown : List Shown},
    format f i ps as = some shown → (shown.flatMap Shown.bytes).length ≤ roomFor ps as := by
  induction ps with
  | nil =>
    intro i as shown h
    cases h
    exact Nat.zero_le _
  | cons p ps ih =>
    intro i as shown h
    cases p with
    | text t =>
      rw [format, Option.map_eq_some_iff] at h
      obtain ⟨xs, h, rfl⟩ := h
      have := ih h
      have e : (Shown.text t).bytes.length = t.utf8ByteSize := rfl
      simp only [List.flatMap_cons, List.length_append, roomFor, e]
      omega
    | conv c =>
      cases as with
      | nil => cases h
      | cons a as =>
        rw [format] at h
        cases hx : c.show f i a with
        | none => rw [hx] at h; cases h
        | some x =>
          cases hr : format f (i + 1) ps as with
          | none => rw [hx, hr] at h; cases h
          | some xs =>
            rw [hx, hr] at h
            cases h
            have h1 := Conv.show_length hx ps as
            have h2 := ih hr
            simp only [List.flatMap_cons, List.length_append]
            omega

/-- Every message can be formatted. -/
theorem LogMsg.text_some (m : LogMsg) (f : Frame) : ∃ shown, m.text f = some shown := by
  cases m <;> exact ⟨_, rfl⟩

theorem Level.keep_short (l : Level) {bs : Bytes} (h : bs.length ≤ 1023) : l.keep bs = bs := by
  cases l
  all_goals first | rfl | exact List.take_of_length_le h

/-- A message with enough room is whole. -/
theorem LogMsg.whole {m : LogMsg} (h : m.room ≤ 1023) : Whole m := by
  intro f
  obtain ⟨shown, e⟩ := m.text_some f
  refine ⟨shown, e, ?_⟩
  rw [LogMsg.line, e, Option.map_some, Level.keep_short]
  exact Nat.le_trans (format_length e) h

/-- The messages with a text from outside. -/
def LogMsg.carries : LogMsg → Nat
  | .registrationUnparsed w | .registrationError w | .registrationIgnored w | .responseShort w | .responseInvalid w
  | .responseDataShort w | .responseDataInvalid w => w.utf8ByteSize
  | .idName n => n.length
  | _ => 0

theorem LogMsg.room_le (m : LogMsg) : m.room ≤ 140 + m.carries := by
  cases m <;> simp only [LogMsg.room, LogMsg.call, LogMsg.carries, roomFor, Arg.room] <;>
    first | decide | (rw [Nat.add_zero]; exact Nat.add_le_add_right (by decide) _)

end Eip
