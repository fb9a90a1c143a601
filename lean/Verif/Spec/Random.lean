/-
The 32-bit Mersenne Twister, in the terms of the C++ standard ([rand.eng.mers], `mt19937`): natural numbers below 2^32, one
infinite sequence of words. Nothing here refers to the model.
-/
namespace Eip.Spec

/-- Bit `i` of a number, as 0 or 1. -/
def bit (x i : Nat) : Nat := x / 2 ^ i % 2

/-- A word has 32 bits. -/
def word (x : Nat) : Nat := x % 2 ^ 32

/-- The recurrence: the uppermost bit of one word joined with the other 31 bits of the next, times the matrix. -/
def twisted (x0 x1 xm : Nat) : Nat :=
  let y := x0 / 2 ^ 31 * 2 ^ 31 + x1 % 2 ^ 31
  xm ^^^ (y / 2) ^^^ (bit y 0 * 0x9908B0DF)

/-- The words of the generator: 624 made from the seed, then each from the ones 624, 623 and 227 places before it. -/
structure Mersenne (seed : Nat) (x : Nat → Nat) : Prop where
  first : x 0 = word seed
  seeded : ∀ i, i + 1 < 624 → x (i + 1) = word (1812433253 * (x i ^^^ (x i / 2 ^ 30)) + (i + 1))
  later : ∀ i, x (i + 624) = twisted (x i) (x (i + 1)) (x (i + 397))

/-- The tempering of a word. -/
def tempered (x : Nat) : Nat :=
  let y := x ^^^ (x / 2 ^ 11)
  let y := y ^^^ (word (y * 2 ^ 7) &&& 0x9D2C5680)
  let y := y ^^^ (word (y * 2 ^ 15) &&& 0xEFC60000)
  y ^^^ (y / 2 ^ 18)

/-- `out` are the outputs of `mt19937` seeded with the number, in order. -/
def Mt19937 (seed : Nat) (out : Nat → Nat) : Prop := ∃ x, Mersenne seed x ∧ ∀ i, out i = tempered (x (i + 624))

/-- A number below `n`, drawn from one with 32 bits by cutting the 2^32 possible values into `n` equal pieces: the number of
the piece (`uniform_int_distribution`, for `n` a power of two). -/
def piece (n x : Nat) : Nat := x / (2 ^ 32 / n)

end Eip.Spec
