import Verif.Props.Random
import Verif.Spec.Random
import Verif.Spec.Log
import Verif.Props.LogText
/-
C112: the numbers a session starts with.
-/
namespace Eip
open Spec

theorem toNat_shr (x : UInt32) (n : UInt32) (h : n.toNat < 32) : (x >>> n).toNat = x.toNat / 2 ^ n.toNat := by
  rw [UInt32.toNat_shiftRight, Nat.mod_eq_of_lt h, Nat.shiftRight_eq_div_pow]

theorem toNat_shl (x : UInt32) (n : UInt32) (h : n.toNat < 32) : (x <<< n).toNat = word (x.toNat * 2 ^ n.toNat) := by
  rw [UInt32.toNat_shiftLeft, Nat.mod_eq_of_lt h, Nat.shiftLeft_eq]
  rfl

theorem temper_toNat (x : UInt32) : (mtTemper x).toNat = tempered x.toNat := by
  have s1 : ∀ y : UInt32, (y >>> 18).toNat = y.toNat / 2 ^ 18 := fun y => toNat_shr y 18 (by decide)
  have s2 : ∀ y : UInt32, (y <<< 15).toNat = word (y.toNat * 2 ^ 15) := fun y => toNat_shl y 15 (by decide)
  have s3 : ∀ y : UInt32, (y <<< 7).toNat = word (y.toNat * 2 ^ 7) := fun y => toNat_shl y 7 (by decide)
  have s4 : ∀ y : UInt32, (y >>> 11).toNat = y.toNat / 2 ^ 11 := fun y => toNat_shr y 11 (by decide)
  have e5 : (0x9D2C5680 : UInt32).toNat = 0x9D2C5680 := rfl
  have e6 : (0xEFC60000 : UInt32).toNat = 0xEFC60000 := rfl
  simp only [mtTemper, tempered, UInt32.toNat_xor, UInt32.toNat_and, s1, s2, s3, s4, e5, e6]

theorem joined (a b : Nat) (ha : a < 2 ^ 32) :
    (a &&& 0x80000000) ||| (b &&& 0x7FFFFFFF) = a / 2 ^ 31 * 2 ^ 31 + b % 2 ^ 31 := by
  have h1 : a &&& 0x80000000 = a / 2 ^ 31 * 2 ^ 31 := by
    apply Nat.eq_of_testBit_eq
    intro i
    rw [Nat.testBit_and, Nat.testBit_mul_two_pow, Nat.testBit_div_two_pow]
    have : (0x80000000 : Nat) = 2 ^ 31 := rfl
    rw [this, Nat.testBit_two_pow]
    by_cases hi : i = 31
    · subst hi; simp
    · by_cases h2 : 31 ≤ i
      · have : a.testBit i = false := Nat.testBit_lt_two_pow (Nat.lt_of_lt_of_le ha (Nat.pow_le_pow_right (by decide) (by omega)))
        have e : i - 31 + 31 = i := by omega
        simp [e, this]
      · simp [h2, Ne.symm hi]
  have h2 : b &&& 0x7FFFFFFF = b % 2 ^ 31 := Nat.and_two_pow_sub_one_eq_mod b 31
  rw [h1, h2, Nat.mul_comm, ← Nat.two_pow_add_eq_or_of_lt (Nat.mod_lt _ (by decide))]

theorem twist_toNat (x0 x1 xm : UInt32) : (mtTwist x0 x1 xm).toNat = twisted x0.toNat x1.toNat xm.toNat := by
  have hy : ((x0 &&& 0x80000000) ||| (x1 &&& 0x7FFFFFFF)).toNat = x0.toNat / 2 ^ 31 * 2 ^ 31 + x1.toNat % 2 ^ 31 := by
    rw [UInt32.toNat_or, UInt32.toNat_and, UInt32.toNat_and]
    exact joined _ _ x0.toNat_lt
  simp only [mtTwist, twisted]
  rw [← hy]
  generalize (x0 &&& 0x80000000) ||| (x1 &&& 0x7FFFFFFF) = y
  rw [UInt32.toNat_xor, UInt32.toNat_xor, toNat_shr _ 1 (by decide)]
  have hb : (y &&& 1 = 0) ↔ bit y.toNat 0 = 0 := by
    rw [← UInt32.toNat_inj, UInt32.toNat_and]
    simp [bit, Nat.and_one_is_mod]
  have : bit y.toNat 0 = 0 ∨ bit y.toNat 0 = 1 := by unfold bit; omega
  rcases this with h | h
  · rw [if_pos (hb.2 h), h]; simp
  · rw [if_neg (fun e => by rw [hb.1 e] at h; cases h), h]; simp

theorem word_toNat (seed : UInt32) {x : Nat → Nat} (h : Mersenne seed.toNat x) (i : Nat) (hi : i < 624) :
    (mtWord seed i).toNat = x i := by
  induction i with
  | zero =>
    rw [h.first, word, Nat.mod_eq_of_lt seed.toNat_lt]
    rfl
  | succ i ih =>
    have ih := ih (by omega)
    rw [h.seeded i hi, ← ih]
    simp only [mtWord, mtNext]
    rw [UInt32.toNat_add, UInt32.toNat_mul, UInt32.toNat_xor, toNat_shr _ 30 (by decide)]
    have : (UInt32.ofNat (i + 1)).toNat = i + 1 := by
      rw [UInt32.toNat_ofNat']
      exact Nat.mod_eq_of_lt (by omega)
    rw [this, word, Nat.mod_add_mod]
    rfl

/-- The generator of the model is `mt19937`, as far as it goes. -/
theorem output_toNat (seed : UInt32) {out : Nat → Nat} (h : Mt19937 seed.toNat out) (i : Nat) (hi : i < 227) :
    (mtOutput seed i).toNat = out i := by
  obtain ⟨x, hx, ho⟩ := h
  rw [ho, hx.later, mtOutput, temper_toNat, twist_toNat, word_toNat seed hx i (by omega), word_toNat seed hx (i + 1) (by omega),
    word_toNat seed hx (i + 397) (by omega)]

/-- C112: what a session starts with, for every time of construction and every generator that is `mt19937`. The connection
id is the first output of the generator seeded with the time; the serial number is drawn from the second one; the session has
no handle and no connections, and the vendor id and serial number given to the constructor. -/
theorem c112_construct (vendor : UInt16) (serial : UInt32) (time : Int) (mem : Bytes) (out : Nat → Nat)
    (gen : Mt19937 (time % 2 ^ 32).toNat out) :
    (Session.construct vendor serial time mem).nextConnectionId.toNat = out 0 ∧
    (Session.construct vendor serial time mem).nextConnectionSn.toNat = piece 65536 (out 1) ∧
    (Session.construct vendor serial time mem).sessionId = 0 ∧
    (Session.construct vendor serial time mem).connections = [] ∧
    (Session.construct vendor serial time mem).vendorId = vendor ∧
    (Session.construct vendor serial time mem).serialNum = serial := by
  have hs : (mtSeed time).toNat = (time % 2 ^ 32).toNat := by
    rw [mtSeed, UInt32.toNat_ofNat']
    exact Nat.mod_eq_of_lt (by omega)
  rw [← hs] at gen
  have h0 := output_toNat _ gen 0 (by decide)
  have h1 := output_toNat _ gen 1 (by decide)
  refine ⟨h0, ?_, rfl, rfl, rfl, rfl⟩
  show (startingSn time).toNat = _
  have := (mtOutput (mtSeed time) 1).toNat_lt
  rw [startingSn, h1, UInt16.toNat_ofNat', piece]
  rw [h1] at this
  omega

/-- C112: the first connection request of a session, whatever was called before it: the proposed ids are the first output of
the generator and the number after it, the name of the connection is the serial number drawn from the second output together
with the vendor id and serial number of the originator; if the program gave none, these are 0x1234 and 0x6789. -/
theorem c112_first_request (time : Int) (mem : Bytes) (env : Nat → Answer) (out : Nat → Nat)
    (gen : Mt19937 (time % 2 ^ 32).toNat out) (ops : List Op) (app : ∀ op ∈ ops, OpAppends op) (none : attempts ops = 0)
    (o t : ConnectionInfo) (vendor : UInt16) (serial : UInt32) :
    (∃ b, openRequests (Session.createConnection o t (runOps ops (startAt vendor serial time mem env)).1).2.trace = [b] ∧
      oToTOf b = le 4 (out 0) ∧ tToOOf b = le 4 ((out 0 + 1) % 2 ^ 32) ∧
      triadOf b = le 2 (piece 65536 (out 1)) ++ le 2 vendor.toNat ++ le 4 serial.toNat) ∧
    (∃ b, openRequests (Session.createConnection o t
        (runOps ops (startAt defaultVendorId defaultSerialNum time mem env)).1).2.trace = [b] ∧
      triadOf b = le 2 (piece 65536 (out 1)) ++ [0x34, 0x12] ++ [0x89, 0x67, 0, 0]) := by
  obtain ⟨e0, e1, _⟩ := c112_construct vendor serial time mem out gen
  obtain ⟨_, e1', _⟩ := c112_construct defaultVendorId defaultSerialNum time mem out gen
  obtain ⟨b, h, x, y, z⟩ := first_request ops app none (startAt vendor serial time mem env) rfl o t
  obtain ⟨b', h', _, _, z'⟩ := first_request ops app none (startAt defaultVendorId defaultSerialNum time mem env) rfl o t
  refine ⟨⟨b, h, ?_, ?_, ?_⟩, b', h', ?_⟩
  · rw [x, ← e0]; rfl
  · rw [y, UInt32.toNat_add, ← e0]; rfl
  · rw [z, triad, ← e1]; rfl
  · have v : le 2 defaultVendorId.toNat = [0x34, 0x12] := by decide
    have n : le 4 defaultSerialNum.toNat = [0x89, 0x67, 0, 0] := by decide
    rw [z', triad, ← e1', ← v, ← n]
    rfl

/-- C112: the constructor logs one message, at level inform, which is about exactly these two numbers. -/
theorem c112_log (vendor : UInt16) (serial : UInt32) (time : Int) (mem : Bytes) (out : Nat → Nat)
    (gen : Mt19937 (time % 2 ^ 32).toNat out) :
    ∃ m, Session.Logged.new vendor serial (startingSn time) (startingId time) mem =
        (Session.construct vendor serial time mem, [m]) ∧ m.level = .inform ∧
      intended m = [.text "Generated starting connection ID ", .dec (out 0), .text " and SN ", .dec (piece 65536 (out 1))] := by
  obtain ⟨e0, e1, _⟩ := c112_construct vendor serial time mem out gen
  refine ⟨_, rfl, rfl, ?_⟩
  rw [← e0, ← e1]
  rfl

/-- There is such a generator for every seed. -/
def mersenneTable (seed : Nat) : Nat → List Nat
  | 0 => [word seed]
  | n + 1 =>
    let l := mersenneTable seed n
    let x := fun i => l.getD (n - i) 0
    (if n + 1 < 624 then word (1812433253 * (x n ^^^ (x n / 2 ^ 30)) + (n + 1))
      else twisted (x (n + 1 - 624)) (x (n + 1 - 624 + 1)) (x (n + 1 - 624 + 397))) :: l

theorem table_succ (seed n : Nat) : (mersenneTable seed (n + 1)).headD 0 =
    let x := fun i => (mersenneTable seed n).getD (n - i) 0
    if n + 1 < 624 then word (1812433253 * (x n ^^^ (x n / 2 ^ 30)) + (n + 1))
      else twisted (x (n + 1 - 624)) (x (n + 1 - 624 + 1)) (x (n + 1 - 624 + 397)) := rfl

theorem table_get (seed i : Nat) : ∀ n, i ≤ n → (mersenneTable seed n).getD (n - i) 0 = (mersenneTable seed i).headD 0 := by
  intro n h
  induction n with
  | zero => obtain rfl : i = 0 := by omega
            rfl
  | succ n ih =>
    by_cases e : i = n + 1
    · subst e; simp [mersenneTable]
    · have e1 : n + 1 - i = (n - i) + 1 := by omega
      rw [e1, ← ih (by omega)]
      simp only [mersenneTable, List.getD_cons_succ]

/-- The hypothesis of C112 is satisfiable: for every seed there is a generator. -/
theorem mersenne_exists (seed : Nat) : ∃ out, Mt19937 seed out := by
  refine ⟨_, fun i => (mersenneTable seed i).headD 0, ⟨rfl, fun i hi => ?_, fun i => ?_⟩, fun _ => rfl⟩
  · have := table_get seed i i (Nat.le_refl _)
    rw [table_succ]
    dsimp only
    rw [if_pos hi, this]
  · have h := table_succ seed (i + 623)
    dsimp only at h
    rw [if_neg (by omega)] at h
    refine h.trans ?_
    rw [show i + 623 + 1 - 624 = i by omega, table_get seed i _ (by omega),
      table_get seed (i + 1) _ (by omega), table_get seed (i + 397) _ (by omega)]

/-- A session constructed at second 1700000000. -/
example : ∃ out, Mt19937 ((1700000000 : Int) % 2 ^ 32).toNat out ∧
    (Session.construct 1 2 1700000000 []).nextConnectionId.toNat = out 0 := by
  obtain ⟨out, h⟩ := mersenne_exists ((1700000000 : Int) % 2 ^ 32).toNat
  exact ⟨out, h, (c112_construct 1 2 1700000000 [] out h).1⟩

/-- The generator agrees with the published test vector: the default seed 5489 gives 3499211612, 581869302, .... -/
example : mtOutput 5489 0 = 3499211612 ∧ mtOutput 5489 1 = 581869302 := by decide +kernel

/-- The starting numbers of two sessions constructed one second after the other. -/
example : startingSn 1700000000 ≠ startingSn 1700000001 ∧ startingId 1700000000 ≠ startingId 1700000001 := by decide +kernel
/-- Two seconds whose sessions start with the same serial number. -/
example : startingSn 1700000185 = startingSn 1700000352 := by decide +kernel

end Eip
