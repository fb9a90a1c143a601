import Verif.Model.Items
import Verif.Model.Encap
/-
Facts about the in-memory representation of integers and plain structures.
-/
namespace Eip

@[simp] theorem leBytes_length (k n : Nat) : (leBytes k n).length = k := by
  induction k generalizing n with
  | zero => rfl
  | succ k ih => simp [leBytes, ih]

theorem leVal_leBytes (k n : Nat) : leVal (leBytes k n) = n % 256 ^ k := by
  induction k generalizing n with
  | zero => simp [leBytes, leVal, Nat.mod_one]
  | succ k ih =>
    simp only [leBytes, leVal, ih, UInt8.toNat_ofNat']
    have : n % 256 % 2 ^ 8 = n % 256 := by omega
    rw [this, show 256 ^ (k + 1) = 256 * 256 ^ k by rw [Nat.pow_succ, Nat.mul_comm], Nat.mod_mul]

theorem leVal_lt (bs : Bytes) : leVal bs < 256 ^ bs.length := by
  induction bs with
  | nil => simp [leVal]
  | cons b bs ih =>
    have := b.toNat_lt
    simp only [leVal, List.length_cons, Nat.pow_succ]
    omega

theorem leBytes_leVal (bs : Bytes) : leBytes bs.length (leVal bs) = bs := by
  induction bs with
  | nil => rfl
  | cons b bs ih =>
    have hb := b.toNat_lt
    simp only [List.length_cons, leBytes, leVal]
    have h1 : (b.toNat + 256 * leVal bs) / 256 = leVal bs := by omega
    have h2 : (b.toNat + 256 * leVal bs) % 256 = b.toNat := by omega
    rw [h1, h2, ih]
    congr 1
    exact UInt8.ofNat_toNat

@[simp] theorem le8_length (v : UInt8) : (le8 v).length = 1 := leBytes_length _ _
@[simp] theorem le16_length (v : UInt16) : (le16 v).length = 2 := leBytes_length _ _
@[simp] theorem le32_length (v : UInt32) : (le32 v).length = 4 := leBytes_length _ _

@[simp] theorem de8_le8 (v : UInt8) : de8 (le8 v) = v := by
  unfold de8 le8
  rw [leVal_leBytes]
  have := v.toNat_lt
  rw [Nat.mod_eq_of_lt (by omega)]
  exact UInt8.ofNat_toNat

@[simp] theorem de16_le16 (v : UInt16) : de16 (le16 v) = v := by
  unfold de16 le16
  rw [leVal_leBytes]
  have := v.toNat_lt
  rw [Nat.mod_eq_of_lt (by omega)]
  exact UInt16.ofNat_toNat

@[simp] theorem de32_le32 (v : UInt32) : de32 (le32 v) = v := by
  unfold de32 le32
  rw [leVal_leBytes]
  have := v.toNat_lt
  rw [Nat.mod_eq_of_lt (by omega)]
  exact UInt32.ofNat_toNat

theorem le8_de8 {bs : Bytes} (h : bs.length = 1) : le8 (de8 bs) = bs := by
  unfold de8 le8
  have h1 := leVal_lt bs
  rw [h] at h1
  rw [UInt8.toNat_ofNat_of_lt' (by simpa [UInt8.size] using h1)]
  conv => rhs; rw [← leBytes_leVal bs, h]

theorem le16_de16 {bs : Bytes} (h : bs.length = 2) : le16 (de16 bs) = bs := by
  unfold de16 le16
  have h1 := leVal_lt bs
  rw [h] at h1
  rw [UInt16.toNat_ofNat_of_lt' (by simpa [UInt16.size] using h1)]
  conv => rhs; rw [← leBytes_leVal bs, h]

theorem le32_de32 {bs : Bytes} (h : bs.length = 4) : le32 (de32 bs) = bs := by
  unfold de32 le32
  have h1 := leVal_lt bs
  rw [h] at h1
  rw [UInt32.toNat_ofNat_of_lt' (by simpa [UInt32.size] using h1)]
  conv => rhs; rw [← leBytes_leVal bs, h]

theorem le8_eq (v : UInt8) : le8 v = [v] := by
  have h := le8_de8 (bs := [v]) rfl
  have : de8 [v] = v := by
    unfold de8; simp [leVal]
  rw [this] at h
  exact h

/-- The representation has a fixed size, and reading back what was stored gives the same value, for every value
and for every byte pattern. -/
structure Codec.Lawful {τ : Type} (c : Codec τ) (n : Nat) : Prop where
  len : ∀ v, (c.enc v).length = n
  dec_enc : ∀ v, c.dec (c.enc v) = v
  enc_dec : ∀ bs : Bytes, bs.length = n → c.enc (c.dec bs) = bs

theorem Codec.u8_lawful : Codec.u8.Lawful 1 := ⟨le8_length, de8_le8, fun _ => le8_de8⟩
theorem Codec.u16_lawful : Codec.u16.Lawful 2 := ⟨le16_length, de16_le16, fun _ => le16_de16⟩
theorem Codec.u32_lawful : Codec.u32.Lawful 4 := ⟨le32_length, de32_le32, fun _ => le32_de32⟩

theorem Codec.pair_lawful {α β : Type} {a : Codec α} {b : Codec β} {n m : Nat}
    (ha : a.Lawful n) (hb : b.Lawful m) : (Codec.pair a n b).Lawful (n + m) where
  len v := by simp [Codec.pair, ha.len, hb.len]
  dec_enc v := by
    have h1 : (a.enc v.1 ++ b.enc v.2).take n = a.enc v.1 := by
      rw [← ha.len v.1]; simp
    have h2 : (a.enc v.1 ++ b.enc v.2).drop n = b.enc v.2 := by
      rw [← ha.len v.1]; simp
    simp [Codec.pair, h1, h2, ha.dec_enc, hb.dec_enc]
  enc_dec bs h := by
    simp only [Codec.pair]
    rw [ha.enc_dec _ (by rw [List.length_take]; omega), hb.enc_dec _ (by rw [List.length_drop]; omega),
      List.take_append_drop]

theorem Codec.context_lawful : Codec.context.Lawful 8 := Codec.pair_lawful Codec.u32_lawful Codec.u32_lawful
theorem Codec.revision_lawful : Codec.revision.Lawful 2 := Codec.pair_lawful Codec.u8_lawful Codec.u8_lawful

private theorem take_app {a b : Bytes} {n : Nat} (h : a.length = n) : (a ++ b).take n = a := by
  rw [← h]; simp
private theorem drop_app {a b : Bytes} {n : Nat} (h : a.length = n) : (a ++ b).drop n = b := by
  rw [← h]; simp

theorem Codec.sockaddr_lawful : Codec.sockaddr.Lawful 16 where
  len v := by simp [Codec.sockaddr]
  dec_enc v := by
    obtain ⟨f, p, a, z1, z2⟩ := v
    simp only [Codec.sockaddr]
    have d4 : (le16 f ++ le16 p ++ le32 a ++ le32 z1 ++ le32 z2).drop 4 = le32 a ++ le32 z1 ++ le32 z2 := by
      rw [List.append_assoc, List.append_assoc]
      rw [show le16 f ++ le16 p ++ (le32 a ++ (le32 z1 ++ le32 z2)) =
        (le16 f ++ le16 p) ++ (le32 a ++ (le32 z1 ++ le32 z2)) from rfl, drop_app (by simp)]
      simp
    have d8 : (le16 f ++ le16 p ++ le32 a ++ le32 z1 ++ le32 z2).drop 8 = le32 z1 ++ le32 z2 := by
      rw [List.append_assoc, drop_app (by simp)]
    have d12 : (le16 f ++ le16 p ++ le32 a ++ le32 z1 ++ le32 z2).drop 12 = le32 z2 := drop_app (by simp)
    have d2 : (le16 f ++ le16 p ++ le32 a ++ le32 z1 ++ le32 z2).drop 2
        = le16 p ++ (le32 a ++ (le32 z1 ++ le32 z2)) := by
      simp only [List.append_assoc]; rw [drop_app (by simp)]
    have t2 : (le16 f ++ le16 p ++ le32 a ++ le32 z1 ++ le32 z2).take 2 = le16 f := by
      simp only [List.append_assoc]; rw [take_app (by simp)]
    rw [d4, d8, d12, d2, t2]
    rw [take_app (by simp : (le16 p).length = 2), List.append_assoc, take_app (by simp : (le32 a).length = 4),
      take_app (by simp : (le32 z1).length = 4)]
    have : (le32 z2).take 4 = le32 z2 := by rw [List.take_of_length_le]; simp
    rw [this]
    simp
  enc_dec bs h := by
    simp only [Codec.sockaddr]
    rw [le16_de16 (by simp; omega), le16_de16 (by simp; omega), le32_de32 (by simp; omega),
      le32_de32 (by simp; omega), le32_de32 (by simp; omega)]
    have e1 : bs.take 2 ++ (bs.drop 2).take 2 = bs.take 4 := by
      rw [show (4 : Nat) = 2 + 2 from rfl, List.take_add]
    have e2 : bs.take 4 ++ (bs.drop 4).take 4 = bs.take 8 := by
      rw [show (8 : Nat) = 4 + 4 from rfl, List.take_add]
    have e3 : bs.take 8 ++ (bs.drop 8).take 4 = bs.take 12 := by
      rw [show (12 : Nat) = 8 + 4 from rfl, List.take_add]
    have e4 : bs.take 12 ++ (bs.drop 12).take 4 = bs.take 16 := by
      rw [show (16 : Nat) = 12 + 4 from rfl, List.take_add]
    rw [e1, e2, e3, e4, List.take_of_length_le (by omega)]

end Eip
