import Verif.Spec.Types
import Verif.Props.Commands
/-
C129: attributes of the elementary types.
-/
namespace Eip
open Spec

private theorem cell_lawful (n : Nat) : (Codec.cell n).Lawful n where
  len v := v.2
  dec_enc v := by simp [Codec.cell, v.2]
  enc_dec bs h := by simp [Codec.cell, h]

private theorem congruent8 (v : Int8) : v.toUInt8.toNat = (v.toInt % 256).toNat := by
  have h1 : v.toInt = v.toBitVec.toInt := rfl
  have h2 : v.toUInt8.toNat = v.toBitVec.toNat := rfl
  rw [h1, h2, BitVec.toInt_eq_toNat_bmod, show (256 : Int) = ((2 ^ 8 : Nat) : Int) from rfl, Int.bmod_emod]
  have := v.toBitVec.isLt
  omega

private theorem congruent16 (v : Int16) : v.toUInt16.toNat = (v.toInt % 65536).toNat := by
  have h1 : v.toInt = v.toBitVec.toInt := rfl
  have h2 : v.toUInt16.toNat = v.toBitVec.toNat := rfl
  rw [h1, h2, BitVec.toInt_eq_toNat_bmod, show (65536 : Int) = ((2 ^ 16 : Nat) : Int) from rfl, Int.bmod_emod]
  have := v.toBitVec.isLt
  omega

private theorem congruent32 (v : Int32) : v.toUInt32.toNat = (v.toInt % 4294967296).toNat := by
  have h1 : v.toInt = v.toBitVec.toInt := rfl
  have h2 : v.toUInt32.toNat = v.toBitVec.toNat := rfl
  rw [h1, h2, BitVec.toInt_eq_toNat_bmod, show (4294967296 : Int) = ((2 ^ 32 : Nat) : Int) from rfl, Int.bmod_emod]
  have := v.toBitVec.isLt
  omega

theorem EipType.store_eq (t : EipType) (v : t.Val) : t.store v = cipBytes t v := by
  cases t <;> simp only [EipType.store, cipBytes, le8_eq_le, le16_eq_le, le32_eq_le, congruent8, congruent16, congruent32]

theorem EipType.store_length (t : EipType) (v : t.Val) : (t.store v).length = t.size := by
  cases t <;> simp [EipType.store, EipType.size]

theorem EipType.load_store (t : EipType) (v : t.Val) : t.load (t.store v) = .ok v := by
  cases t <;> simp [EipType.store, EipType.load]
  cases v <;> simp

theorem EipType.store_load (t : EipType) (bs : Bytes) (h : bs.length = t.size) (hb : t = .bool → bs = [0] ∨ bs = [1]) :
    ∃ v, t.load bs = .ok v ∧ t.store v = bs := by
  cases t
  case bool =>
    rcases hb rfl with rfl | rfl
    · exact ⟨false, rfl, rfl⟩
    · exact ⟨true, rfl, rfl⟩
  case byte => exact ⟨_, rfl, le8_de8 h⟩
  case usint => exact ⟨_, rfl, le8_de8 h⟩
  case sint => exact ⟨_, rfl, by simp only [EipType.store, UInt8.toUInt8_toInt8, le8_de8 h]⟩
  case word => exact ⟨_, rfl, le16_de16 h⟩
  case uint => exact ⟨_, rfl, le16_de16 h⟩
  case int => exact ⟨_, rfl, by simp only [EipType.store, UInt16.toUInt16_toInt16, le16_de16 h]⟩
  case dword => exact ⟨_, rfl, le32_de32 h⟩
  case udint => exact ⟨_, rfl, le32_de32 h⟩
  case dint => exact ⟨_, rfl, by simp only [EipType.store, UInt32.toUInt32_toInt32, le32_de32 h]⟩

theorem EipType.size_pos (t : EipType) : 0 < t.size := by cases t <;> decide

private theorem of_ok {t : EipType} {x y z : UInt8} {mem : Cell t.size} {w w' : World} {d : Cell t.size}
    (h : Session.getSingleAttribute (Codec.cell t.size) x y z mem w = (.ok d, w')) :
    Session.getSingleAttributeOf t x y z mem w = (t.load d.1, w') := by
  unfold Session.getSingleAttributeOf
  rw [h]

private theorem of_throw {t : EipType} {x y z : UInt8} {mem : Cell t.size} {w w' : World} {e : Exn}
    {d : SerializablePrimitive (Cell t.size)}
    (h : Session.getSingleAttributeSerializable (SerializablePrimitive.cls (Codec.cell t.size)) x y z (⟨mem⟩, w) =
      (.throw e, (d, w'))) :
    Session.getSingleAttributeOf t x y z mem w = (.throw e, w') := by
  unfold Session.getSingleAttributeOf Session.getSingleAttribute
  rw [h]

/-- With a good reply that is long enough, the memory is filled from the data and looked at. -/
private theorem get_of (t : EipType) (x y z : UInt8) (mem : Cell t.size) (w : World) (works : Works w.env w.clock) (s : UInt8)
    (data : Bytes) (reply : Response w.s.sessionId (delivered w.env (w.clock + 1)) s 0 data) (long : t.size ≤ data.length) :
    Session.getSingleAttributeOf t x y z mem w = (t.load (data.take t.size), w.exchanged
      (command w.s.sessionId 0x0E [.class' x, .instance' y, .attribute z] [])) := by
  have h := get_primitive (cell_lawful t.size) x y z mem w works s data reply t.size_pos long
  have e : (Codec.cell t.size).dec (data.take t.size) = ⟨data.take t.size, by simp; omega⟩ := by
    simp [Codec.cell, long]
  rw [e] at h
  exact of_ok h

/-! ### C129 -/

/-- Different values of a type have different bytes. -/
theorem c129_distinct (t : EipType) (v v' : t.Val) (h : cipBytes t v = cipBytes t v') : v = v' := by
  rw [← t.store_eq, ← t.store_eq] at h
  have e := t.load_store v
  rw [h, t.load_store v'] at e
  exact (Res.ok.inj e).symm

example : cipBytes .int (-2) = [0xFE, 0xFF] ∧ cipBytes .bool true = [1] ∧ cipBytes .dint (-2147483648) = [0, 0, 0, 0x80] := by
  decide

/-- C129 for writing. For every type, value and path, `setSingleAttribute` first sends exactly the set attribute single
request for the path with the bytes of the value; if the socket calls work and the reply is good with status 0, it returns,
and that was the only message. -/
theorem c129_write (t : EipType) (v : t.Val) (x y z : UInt8) (w : World) :
    (∃ ok rest, (Session.setSingleAttributeOf t x y z v w).2.trace = w.trace ++
      .sent .tcp (command w.s.sessionId 0x10 [.class' x, .instance' y, .attribute z] (cipBytes t v)) ok :: rest) ∧
    (Works w.env w.clock →
      (∃ s d, Response w.s.sessionId (delivered w.env (w.clock + 1)) s 0 d) →
      ∃ w', Session.setSingleAttributeOf t x y z v w = (.ok (), w') ∧ w'.trace = w.trace ++
        [.sent .tcp (command w.s.sessionId 0x10 [.class' x, .instance' y, .attribute z] (cipBytes t v)) true,
         .received .tcp (delivered w.env (w.clock + 1)) true]) := by
  have h : EncodesOpt (some ⟨(t.store v).length, Writer.writeBuffer (t.store v), none⟩) (cipBytes t v) := by
    rw [← t.store_eq]
    exact SerializablePrimitive.encodes (Codec.cell (t.store v).length) ⟨t.store v, rfl⟩
  unfold Session.setSingleAttributeOf
  exact c39_set x y z _ _ h w

/-- C129 (partial: BOOL sent as 0 or 1). When the device answers with the bytes of a value, possibly followed by others,
`getSingleAttribute` has sent exactly the get attribute single request for the path and returns the value, whatever the local
variable contained. Missing: BOOL sent as another byte, for which it is false (`c129_violated`). -/
theorem c129_read_partial (t : EipType) (v : t.Val) (rest : Bytes) (x y z : UInt8) (mem : Cell t.size) (w : World)
    (works : Works w.env w.clock) (s : UInt8)
    (reply : Response w.s.sessionId (delivered w.env (w.clock + 1)) s 0 (cipBytes t v ++ rest)) :
    ∃ w', Session.getSingleAttributeOf t x y z mem w = (.ok v, w') ∧ w'.trace = w.trace ++
      [.sent .tcp (command w.s.sessionId 0x0E [.class' x, .instance' y, .attribute z] []) true,
       .received .tcp (delivered w.env (w.clock + 1)) true] := by
  have hl : (cipBytes t v).length = t.size := by rw [← t.store_eq, t.store_length]
  have h := get_of t x y z mem w works s _ reply (by simp [hl])
  have e : (cipBytes t v ++ rest).take t.size = t.store v := by rw [← hl, List.take_left', t.store_eq]; rfl
  rw [e, t.load_store] at h
  exact ⟨_, h, rfl⟩

/-- C129 is false for BOOL: if the device sends any other byte than 0 and 1, such as 255 for true, the `bool` that is returned
has no value, and to return it is undefined behaviour. -/
theorem c129_violated (b : UInt8) (h : 1 < b) (rest : Bytes) (x y z : UInt8) (mem : Cell 1) (w : World)
    (works : Works w.env w.clock) (s : UInt8)
    (reply : Response w.s.sessionId (delivered w.env (w.clock + 1)) s 0 (b :: rest)) :
    (Session.getSingleAttributeOf .bool x y z mem w).1 = .ub .invalidBool := by
  rw [get_of .bool x y z mem w works s _ reply (by simp [EipType.size])]
  have h0 : b ≠ 0 := by rintro rfl; exact absurd h (by decide)
  have h1 : b ≠ 1 := by rintro rfl; exact absurd h (by decide)
  simp [EipType.size, EipType.load, h0, h1]

/-- C129: what exactly can come of the data of a good reply. If there are enough bytes, then `getSingleAttribute` returns a
value exactly if its first bytes are those of the value, which for every type but BOOL some value has; the only other case is
BOOL with a byte above 1. If there are too few, it throws `length_error`. -/
theorem c129_exact (t : EipType) (x y z : UInt8) (mem : Cell t.size) (w : World) (works : Works w.env w.clock) (s : UInt8)
    (data : Bytes) (some : data ≠ []) (reply : Response w.s.sessionId (delivered w.env (w.clock + 1)) s 0 data) :
    (t.size ≤ data.length →
      (∀ v, (Session.getSingleAttributeOf t x y z mem w).1 = .ok v ↔ cipBytes t v = data.take t.size) ∧
      (t ≠ .bool → ∃ v, cipBytes t v = data.take t.size) ∧
      (∀ e, (Session.getSingleAttributeOf t x y z mem w).1 ≠ .throw e) ∧
      ((∃ u, (Session.getSingleAttributeOf t x y z mem w).1 = .ub u) ↔ t = .bool ∧ 1 < data.head some)) ∧
    (data.length < t.size → ∃ what, (Session.getSingleAttributeOf t x y z mem w).1 = .throw (lengthError what)) := by
  constructor
  · intro long
    have hl : (data.take t.size).length = t.size := by simp; omega
    rw [get_of t x y z mem w works s _ reply long]
    have good : ∀ v, t.load (data.take t.size) = .ok v ↔ cipBytes t v = data.take t.size := by
      intro v
      constructor
      · intro e
        by_cases hb : t = .bool → data.take t.size = [0] ∨ data.take t.size = [1]
        · obtain ⟨v', e', hv⟩ := t.store_load _ hl hb
          rw [e] at e'
          cases e'
          rw [← t.store_eq, hv]
        · exfalso
          rw [Classical.not_imp, not_or] at hb
          obtain ⟨rfl, h0, h1⟩ := hb
          simp only [EipType.load, h0, h1, if_false] at e
          cases e
      · intro e
        rw [← e, ← t.store_eq, t.load_store]
    refine ⟨good, ?_, ?_, ?_⟩
    · intro hb
      obtain ⟨v, _, hv⟩ := t.store_load _ hl (fun h => absurd h hb)
      exact ⟨v, by rw [← t.store_eq, hv]⟩
    · intro e he
      cases t <;> simp only [EipType.load] at he <;> (try cases he)
      split at he
      · cases he
      · split at he <;> cases he
    · obtain ⟨b, rest, rfl⟩ : ∃ b rest, data = b :: rest := by
        cases data with
        | nil => exact absurd rfl some
        | cons b rest => exact ⟨b, rest, rfl⟩
      by_cases hb : t = .bool
      · subst hb
        have e : (b :: rest).take EipType.bool.size = [b] := rfl
        rw [e]
        by_cases h0 : b = 0
        · subst h0
          simp [EipType.load]
        · by_cases h1 : b = 1
          · subst h1
            simp [EipType.load]
          · have : 1 < b := by
              rw [UInt8.lt_iff_toNat_lt]
              rw [← UInt8.toNat_inj] at h0 h1
              simp at h0 h1 ⊢
              omega
            simp [EipType.load, h0, h1, this]
      · obtain ⟨v, e, _⟩ := t.store_load _ hl (fun h => absurd h hb)
        rw [e]
        simp [hb]
  · intro short
    obtain ⟨what, d, e⟩ := (primitive_from (cell_lawful t.size) mem data).2 short
    have g := get_structured (SerializablePrimitive.cls (Codec.cell t.size)) rfl x y z ⟨mem⟩ w works s data reply some e
    exact ⟨what, by rw [of_throw g]⟩

/-- C129. The codes of the types are the numbers the protocol gives types of their kind and size, and no two types have the
same. -/
theorem c129_codes (t : EipType) :
    (∃ k, t.size = 2 ^ k ∧ t.code.toNat = cipNumber t k) ∧ ∀ t', t.code = t'.code → t = t' := by
  refine ⟨?_, fun t' h => ?_⟩
  · cases t
    · exact ⟨0, rfl, rfl⟩
    · exact ⟨0, rfl, rfl⟩
    · exact ⟨0, rfl, rfl⟩
    · exact ⟨0, rfl, rfl⟩
    · exact ⟨1, rfl, rfl⟩
    · exact ⟨1, rfl, rfl⟩
    · exact ⟨1, rfl, rfl⟩
    · exact ⟨2, rfl, rfl⟩
    · exact ⟨2, rfl, rfl⟩
    · exact ⟨2, rfl, rfl⟩
  · cases t <;> cases t' <;> first | rfl | (exact absurd h (by decide))

/-- An `EIP_INT` is read as it was sent; an `EIP_SINT` takes the first byte of longer data; `EIP_BOOL` with the byte 255 has no
value; one byte is too short for an `EIP_DINT`. -/
example :
    (Session.getSingleAttributeOf .int 1 2 3 ⟨[7, 7], rfl⟩ (answering (replyWith 7 0 0x8E 0 [0xFE, 0xFF]))).1 = .ok (-2) ∧
    (Session.getSingleAttributeOf .sint 1 2 3 ⟨[7], rfl⟩ (answering (replyWith 7 0 0x8E 0 [0x80, 1]))).1 = .ok (-128) ∧
    (Session.getSingleAttributeOf .bool 1 2 3 ⟨[0], rfl⟩ (answering (replyWith 7 0 0x8E 0 [255]))).1 = .ub .invalidBool ∧
    (Session.getSingleAttributeOf .bool 1 2 3 ⟨[9], rfl⟩ (answering (replyWith 7 0 0x8E 0 [1]))).1 = .ok true ∧
    (Session.getSingleAttributeOf .dint 1 2 3 ⟨[0, 0, 0, 0], rfl⟩ (answering (replyWith 7 0 0x8E 0 [1]))).1 =
      .throw (lengthError "Buffer too small to deserialize value") := by
  decide +kernel

end Eip
