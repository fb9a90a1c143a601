import Verif.Spec.Log
/-
C95: what the log messages show.
-/
namespace Eip
open Spec

/-- A variadic call whose argument slots all have a one in their upper halves. -/
def dirty : Frame := ⟨fun _ => 1, fun _ => 0⟩

theorem low_word (v u : UInt32) : (v.toNat + 2 ^ 32 * u.toNat) % 2 ^ 32 = v.toNat := by
  have := v.toNat_lt
  omega

theorem signed_u16 (v : UInt16) (u : UInt32) : signed32 (v.toNat + 4294967296 * u.toNat) = v.toNat := by
  have := v.toNat_lt
  rw [signed32]
  omega

theorem signed_u8 (v : UInt8) (u : UInt32) : signed32 (v.toNat + 4294967296 * u.toNat) = v.toNat := by
  have := v.toNat_lt
  rw [signed32]
  omega

theorem signed_small {n : Nat} (h : n < 2 ^ 31) : signed32 n = n := by
  rw [signed32]
  omega

theorem signed_clean16 (v : UInt16) : signed32 v.toNat = v.toNat := signed_small (by have := v.toNat_lt; omega)

theorem signed_clean8 (v : UInt8) : signed32 v.toNat = v.toNat := signed_small (by have := v.toNat_lt; omega)

theorem takeWhile_all {bs : Bytes} : bs.takeWhile (· ≠ 0) = bs ↔ 0 ∉ bs := by
  induction bs with
  | nil => simp
  | cons b bs ih =>
    by_cases h : b = 0
    · subst h
      simp
    · rw [List.takeWhile_cons_of_pos (by simp [h])]
      simp only [List.cons.injEq, true_and, List.mem_cons, not_or]
      rw [ih]
      exact ⟨fun x => ⟨fun y => h y.symm, x⟩, fun x => x.2⟩

theorem serial_shown (v u : UInt32) : signed32 (v.toNat + 2 ^ 32 * u.toNat) = v.toNat ↔ v.toNat < 2 ^ 31 := by
  rw [signed32, low_word]
  have := v.toNat_lt
  split <;> omega

/-- C95 (partial: which messages). A message shows its values, whatever the parts of the argument slots that the calling
convention leaves open contain, exactly if it does not print a 32-bit number (or a 16-bit one) with `%zu`, is not the
address line of the scanner, is not a serial number from 2^31 on, and is not a product name with a zero byte. Missing:
these messages. -/
theorem c95_shown_right_partial (m : LogMsg) : (∀ f, m.text f = some (intended m)) ↔ ShownRight m := by
  cases m
  case idSerial v =>
    have : ∀ f, LogMsg.text (.idSerial v) f = some (intended (.idSerial v)) ↔ v.toNat < 2 ^ 31 := by
      intro f
      rw [← serial_shown v (f.upper 0)]
      simp [LogMsg.text, LogMsg.call, format, Conv.show, Frame.slot, intended]
    exact ⟨fun h => (this dirty).mp (h dirty), fun h f => (this f).mpr h⟩
  case idName n =>
    have : ∀ f, LogMsg.text (.idName n) f = some (intended (.idName n)) ↔ 0 ∉ n := by
      intro f
      rw [← takeWhile_all]
      simp [LogMsg.text, LogMsg.call, format, Conv.show, intended]
    exact ⟨fun h => (this dirty).mp (h dirty), fun h f => (this f).mpr h⟩
  all_goals first
    | refine ⟨fun h => ?_, fun h => h.elim⟩
      have := h dirty
      simp [LogMsg.text, LogMsg.call, format, Conv.show, Frame.slot, intended, dirty, Arg.u16] at this
      done
    | refine ⟨fun h => ?_, fun h => h.elim⟩
      have := h dirty
      simp [LogMsg.text, LogMsg.call, format, Conv.show, Frame.slot, intended, dirty, Arg.u16] at this
      omega
    | refine ⟨fun _ => trivial, fun _ f => ?_⟩
      simp [LogMsg.text, LogMsg.call, format, Conv.show, Frame.slot, intended, Arg.u16, Arg.u8, signed_u16, signed_u8]
      done

/-- C95 (partial: the usual case). If numbers of 32 bits are passed with zeros in the upper half of their slots, which the
calling convention does not promise, the only messages that do not show their values are the address line of the scanner,
serial numbers from 2^31 on and product names with a zero byte. Missing: these messages. -/
theorem c95_clean_partial (m : LogMsg) :
    (∀ f : Frame, (∀ i, f.upper i = 0) → m.text f = some (intended m)) ↔ ShownClean m := by
  have clean : ∀ i, (⟨fun _ => 0, fun _ => 0⟩ : Frame).upper i = 0 := fun _ => rfl
  cases m
  case idSerial v =>
    have : ∀ f, LogMsg.text (.idSerial v) f = some (intended (.idSerial v)) ↔ v.toNat < 2 ^ 31 := by
      intro f
      rw [← serial_shown v (f.upper 0)]
      simp [LogMsg.text, LogMsg.call, format, Conv.show, Frame.slot, intended]
    exact ⟨fun h => (this _).mp (h _ clean), fun h f _ => (this f).mpr h⟩
  case idName n =>
    have : ∀ f, LogMsg.text (.idName n) f = some (intended (.idName n)) ↔ 0 ∉ n := by
      intro f
      rw [← takeWhile_all]
      simp [LogMsg.text, LogMsg.call, format, Conv.show, intended]
    exact ⟨fun h => (this _).mp (h _ clean), fun h f _ => (this f).mpr h⟩
  case idAddress a p =>
    refine ⟨fun h => ?_, fun h => h.elim⟩
    have := h _ clean
    simp [LogMsg.text, LogMsg.call, format, Conv.show, intended] at this
  all_goals
    refine ⟨fun _ => trivial, fun _ f h => ?_⟩
    simp [LogMsg.text, LogMsg.call, format, Conv.show, Frame.slot, intended, Arg.u16, Arg.u8, signed_clean16, signed_clean8, h]

/-- C95 is false: with a suitable content of the upper half of the argument slot, the message about an opened session
shows a different number for every session id. -/
theorem c95_violated (id : UInt32) : ∃ f shown, LogMsg.text (.opened id) f = some shown ∧ shown ≠ intended (.opened id) := by
  refine ⟨dirty, _, rfl, ?_⟩
  simp only [intended, ne_eq, List.cons.injEq, not_and]
  intro _ h
  have h1 : (1 : UInt32).toNat = 1 := rfl
  simp only [Shown.dec.injEq, Frame.slot, dirty, h1] at h
  omega

/-- C95 is false for the address line of the scanner even if nothing is left open: it prints the location of the text as
a number. -/
theorem c95_violated_address (address : String) (port : UInt16) (f : Frame) :
    LogMsg.text (.idAddress address port) f ≠ some (intended (.idAddress address port)) := by
  intro h
  simp [LogMsg.text, LogMsg.call, format, Conv.show, intended] at h

example : LogMsg.text (.opened 7) ⟨fun _ => 0, fun _ => 0⟩ = some (intended (.opened 7)) := by decide
example : LogMsg.text (.wrongCommand 0x6F 0x65) dirty =
    some [.text "Reply received with wrong command. Expected ", .dec 111, .text " received ", .dec 101] := by decide
example : LogMsg.text (.idSerial 0x80000000) dirty = some [.text "Serial Number: ", .dec (-2147483648)] := by decide
example : ShownRight (.commandFailed 5) := trivial
example : ShownClean (.wrongHandle 7 8) := trivial

end Eip
