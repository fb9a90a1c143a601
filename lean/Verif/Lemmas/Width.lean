import Verif.Model.Width
import Verif.Spec.Width
import Verif.Lemmas.Write
import Verif.Spec.Calls
/-
Helpers for C135.
-/
namespace Eip

theorem sizeToInt_congr {x y : Nat} (h : x % 4294967296 = y % 4294967296) : sizeToInt x = sizeToInt y := by
  unfold sizeToInt
  have e : (2 ^ 32 : Nat) = 4294967296 := by decide
  rw [e, Int.bmod_def, Int.bmod_def]
  have : (x : Int) % ((4294967296 : Nat) : Int) = (y : Int) % ((4294967296 : Nat) : Int) := by omega
  rw [this]

theorem sizeSubW_32 (a b : Nat) : sizeSubW 32 a b = (a + 4294967296 - b) % 4294967296 := by
  simp only [sizeSubW, Nat.reducePow]

theorem sizeSubW_64 (a b : Nat) : sizeSubW 64 a b = (a + 18446744073709551616 - b) % 18446744073709551616 := by
  simp only [sizeSubW, Nat.reducePow]

theorem sizeToInt_sub {a b : Nat} (hb : b ≤ a + 4294967296) :
    sizeToInt (sizeSubW 32 a b) = sizeToInt (sizeSubW 64 a b) := by
  apply sizeToInt_congr
  rw [sizeSubW_32, sizeSubW_64]
  omega

theorem sizeToInt_sub_failed (a : Nat) :
    sizeToInt (sizeSubW 32 a 4294967295) = sizeToInt (sizeSubW 64 a 18446744073709551615) := by
  apply sizeToInt_congr
  rw [sizeSubW_32, sizeSubW_64]
  omega

/-- `p` leaves a small reader small. -/
def StaysSmall {δ α : Type} (p : Prog (δ × Reader) α) : Prop :=
  ∀ s, s.2.Small → (p s).2.2.Small

theorem StaysSmall.bind {δ α β : Type} {p : Prog (δ × Reader) α} {q : α → Prog (δ × Reader) β}
    (hp : StaysSmall p) (hq : ∀ a, StaysSmall (q a)) : StaysSmall (p >>= q) := by
  intro s hs
  have h := hp s hs
  show (Prog.andThen p q s).2.2.Small
  unfold Prog.andThen
  rcases e : p s with ⟨(a | _ | _), s'⟩
  · rw [e] at h; exact hq a s' h
  · rw [e] at h; exact h
  · rw [e] at h; exact h

theorem StaysSmall.pure {δ α : Type} (a : α) : StaysSmall (Pure.pure a : Prog (δ × Reader) α) := fun _ h => h

theorem StaysSmall.modifyObj {δ : Type} (f : δ → δ) : StaysSmall (Eip.modifyObj f) := fun _ h => h

/-- Two programs with the same beginning, which leaves a small reader, and continuations that agree on small readers. -/
theorem bind_same {δ α β : Type} {p : Prog (δ × Reader) α} (hp : StaysSmall p) {q q' : α → Prog (δ × Reader) β}
    (h : ∀ a s, s.2.Small → q a s = q' a s) (s : δ × Reader) (hs : s.2.Small) : (p >>= q) s = (p >>= q') s := by
  have hk := hp s hs
  show Prog.andThen p q s = Prog.andThen p q' s
  unfold Prog.andThen
  rcases e : p s with ⟨(a | _ | _), s'⟩
  · rw [e] at hk; exact h a s' hk
  · rfl
  · rfl

theorem Small.readBuffer {r : BufferReader} (n : Nat) (h : (Reader.buffer r).Small) :
    (Reader.buffer (BufferReader.readBuffer n r).2).Small := by
  unfold BufferReader.readBuffer
  split
  · exact h
  · simp only [Reader.Small, List.length_drop] at h ⊢
    omega

theorem Small.streamInto {r : StreamReader} (old : Bytes) (h : (Reader.stream r).Small) :
    (Reader.stream (StreamReader.readInto old r).2).Small := by
  unfold StreamReader.readInto
  dsimp only
  split
  · exact h
  · split
    · exact ⟨Nat.le_refl _, h.2⟩
    · simp only [Reader.Small, List.length_drop] at *
      omega

theorem Small.readInto (old : Bytes) (r : Reader) (h : r.Small) : (Reader.readInto old r).2.Small := by
  rcases r with r | r
  · exact Small.readBuffer old.length h
  · exact Small.streamInto old h

theorem Small.readLocal (n : Nat) (r : Reader) (h : r.Small) : (Reader.readLocal n r).2.Small := by
  rcases r with r | r
  · exact Small.readBuffer n h
  · unfold Reader.readLocal
    dsimp only
    split
    · exact Small.streamInto _ h
    · exact Small.streamInto _ h

theorem StaysSmall.member {δ τ : Type} (c : Codec τ) (getter : δ → τ) (setter : τ → δ → δ) :
    StaysSmall (readMember c getter setter) := by
  refine StaysSmall.bind (fun _ h => h) (fun o => StaysSmall.bind (fun s h => ?_) (fun _ => StaysSmall.modifyObj _))
  exact Small.readInto _ s.2 h

theorem StaysSmall.local8 {δ : Type} : StaysSmall (readLocal8 : Prog (δ × Reader) UInt8) :=
  StaysSmall.bind (fun s h => Small.readLocal 1 s.2 h) (fun _ => StaysSmall.pure _)

theorem StaysSmall.rawBuffer (n : Nat) : StaysSmall (SerializableBuffer.deserializeLen n) := by
  rintro ⟨b, r | r⟩ h
  · have := Small.readBuffer n h
    unfold SerializableBuffer.deserializeLen
    dsimp only
    rcases e : BufferReader.readBuffer n r with ⟨(_ | _ | _), r'⟩ <;> rw [e] at this <;> exact this
  · have := Small.streamInto (if n ≠ b.data.length then List.replicate n r.junk else b.data) h
    unfold SerializableBuffer.deserializeLen
    dsimp only
    rcases e : StreamReader.readInto (if n ≠ b.data.length then List.replicate n r.junk else b.data) r with
      ⟨(_ | _ | _), r'⟩ <;> rw [e] at this <;> exact this

theorem StaysSmall.newBuffer {δ : Type} (n : Nat) : StaysSmall (readNewBuffer n : Prog (δ × Reader) SerializableBuffer) := by
  rintro ⟨d, r⟩ h
  have := StaysSmall.rawBuffer n (SerializableBuffer.empty, r) h
  unfold readNewBuffer parseFresh
  dsimp only
  rcases e : SerializableBuffer.deserializeLen n (SerializableBuffer.empty, r) with ⟨(_ | _ | _), t, r'⟩ <;>
    rw [e] at this <;> exact this

theorem StaysSmall.data {δ : Type} (n : Int) :
    StaysSmall (MessageRouterResponse.readData n : Prog (δ × Reader) (Option Obj)) := by
  unfold MessageRouterResponse.readData
  split
  · exact StaysSmall.bind (StaysSmall.newBuffer _) (fun _ => StaysSmall.pure _)
  · exact StaysSmall.pure _

theorem sizeW_status (b : UInt8) : sizeW 32 (2 * b.toNat) = 2 * b.toNat ∧ sizeW 64 (2 * b.toNat) = 2 * b.toNat := by
  have := b.toNat_lt
  simp only [sizeW, Nat.reducePow] at this ⊢
  omega

/-- The deserializer with its two computations of lengths left open. -/
def respWith (f : UInt8 → Int) (g : Reader → Nat) (k : Nat → Int) : Prog (MessageRouterResponse × Reader) Unit := do
  readMember .u8 (·.service) (fun v r => { r with service := v })
  readMember .u8 (·.generalStatus) (fun v r => { r with generalStatus := v })
  readMember .u8 (·.generalStatus) (fun v r => { r with generalStatus := v })
  let additionalStatusLength ← readLocal8
  let a ← MessageRouterResponse.readData (f additionalStatusLength)
  modifyObj (fun r => { r with additionalStatus := a })
  let count ← (fun s => (.ok (g s.2), s))
  let d ← MessageRouterResponse.readData (k count)
  modifyObj (fun r => { r with responseData := d })

theorem respWith_same {f f' : UInt8 → Int} {g g' : Reader → Nat} {k k' : Nat → Int} (hf : ∀ b, f b = f' b)
    (hg : ∀ r, r.Small → k (g r) = k' (g' r)) (s : MessageRouterResponse × Reader) (hs : s.2.Small) :
    respWith f g k s = respWith f' g' k' s := by
  unfold respWith
  refine bind_same (StaysSmall.member _ _ _) (fun _ s hs => ?_) s hs
  refine bind_same (StaysSmall.member _ _ _) (fun _ s hs => ?_) s hs
  refine bind_same (StaysSmall.member _ _ _) (fun _ s hs => ?_) s hs
  refine bind_same StaysSmall.local8 (fun b s hs => ?_) s hs
  rw [hf b]
  refine bind_same (StaysSmall.data _) (fun _ s hs => ?_) s hs
  refine bind_same (StaysSmall.modifyObj _) (fun _ s hs => ?_) s hs
  show Prog.andThen _ _ s = Prog.andThen _ _ s
  simp only [Prog.andThen]
  rw [hg s.2 hs]

theorem respWith_eq (bits length : Nat) : MessageRouterResponse.deserializeSizedW bits length =
    respWith (fun b => sizeToInt (sizeW bits (2 * b.toNat))) (Reader.getByteCountW bits)
      (fun c => sizeToInt (sizeSubW bits length c)) := rfl

theorem count_width (length : Nat) (r : Reader) (hs : r.Small) :
    sizeToInt (sizeSubW 32 length (r.getByteCountW 32)) = sizeToInt (sizeSubW 64 length (r.getByteCountW 64)) := by
  rcases r with r | r
  · refine sizeToInt_sub ?_
    simp only [Reader.Small] at hs
    simp only [Reader.getByteCountW, BufferReader.getByteCount]
    omega
  · simp only [Reader.Small] at hs
    cases hg : r.good with
    | true =>
      have e : ∀ bits, (Reader.stream r).getByteCountW bits = r.pos := fun bits => by
        simp only [Reader.getByteCountW, StreamReader.getByteCountW, hg, if_true]
      rw [e, e]
      exact sizeToInt_sub (by omega)
    | false =>
      have e : ∀ bits, (Reader.stream r).getByteCountW bits = 2 ^ bits - 1 := fun bits => by
        simp [Reader.getByteCountW, StreamReader.getByteCountW, hg]
      have e1 : (Reader.stream r).getByteCountW 32 = 4294967295 := by rw [e]
      have e2 : (Reader.stream r).getByteCountW 64 = 18446744073709551615 := by rw [e]
      rw [e1, e2]
      exact sizeToInt_sub_failed length

theorem status_width (b : UInt8) : sizeToInt (sizeW 32 (2 * b.toNat)) = sizeToInt (sizeW 64 (2 * b.toNat)) :=
  congrArg sizeToInt ((sizeW_status b).1.trans (sizeW_status b).2.symm)

theorem response_width (length : Nat) (s : MessageRouterResponse × Reader) (hs : s.2.Small) :
    MessageRouterResponse.deserializeSizedW 32 length s = MessageRouterResponse.deserializeSizedW 64 length s :=
  (congrFun (respWith_eq 32 length) s).trans
    ((respWith_same (f := fun b => sizeToInt (sizeW 32 (2 * b.toNat))) (f' := fun b => sizeToInt (sizeW 64 (2 * b.toNat)))
      (g := Reader.getByteCountW 32) (g' := Reader.getByteCountW 64)
      (k := fun c => sizeToInt (sizeSubW 32 length c)) (k' := fun c => sizeToInt (sizeSubW 64 length c))
      status_width (count_width length) s hs).trans (congrFun (respWith_eq 64 length) s).symm)

theorem response_64 (length : Nat) : MessageRouterResponse.deserializeSizedW 64 length = MessageRouterResponse.deserializeSized length := by
  have h : ∀ r : Reader, r.getByteCountW 64 = r.getByteCount := by
    intro r
    cases r <;> simp only [Reader.getByteCountW, Reader.getByteCount, StreamReader.getByteCountW, StreamReader.getByteCount]
  have h2 : ∀ a b, sizeSubW 64 a b = sizeSub a b := fun a b => by simp only [sizeSubW, sizeSub]
  unfold MessageRouterResponse.deserializeSizedW MessageRouterResponse.deserializeSized
  simp only [h, h2, (sizeW_status _).2]

theorem foldl_mod (bits M : Nat) (hM : 2 ^ bits = M) (is : List CPFItem) : ∀ x, x < M →
    is.foldl (fun l i => sizeW bits (l + i.getLength)) x = (x + (is.map CPFItem.getLength).sum) % M := by
  induction is with
  | nil =>
    intro x hx
    simp only [List.foldl_nil, List.map_nil, List.sum_nil, Nat.add_zero]
    exact (Nat.mod_eq_of_lt hx).symm
  | cons i is ih =>
    intro x hx
    have hM0 : 0 < M := Nat.lt_of_le_of_lt (Nat.zero_le _) hx
    simp only [List.foldl_cons, List.map_cons, List.sum_cons, sizeW, hM]
    have := ih ((x + i.getLength) % M) (Nat.mod_lt _ hM0)
    simp only [sizeW, hM] at this
    rw [this, Nat.mod_add_mod, Nat.add_assoc]

theorem getLengthW_eq (bits M : Nat) (hM : 2 ^ bits = M) (h2 : 2 < M) (p : CPFPacket) :
    p.getLengthW bits = p.getLength % M := by
  rw [CPFPacket.getLengthW, foldl_mod bits M hM p.items 2 h2, CPFPacket.getLength, foldl_getLength]

theorem getLength_replicate (n : Nat) (i : CPFItem) : (CPFPacket.mk (List.replicate n i)).getLength = 2 + n * i.getLength := by
  rw [CPFPacket.getLength, foldl_getLength, List.map_replicate, List.sum_replicate_nat]

theorem itemsAre_replicate (n : Nat) (t : UInt16) (bs : Bytes) :
    Spec.ItemsAre (List.replicate n ⟨t, some (SerializableBuffer.obj ⟨bs⟩)⟩) (List.replicate n (t, bs)) := by
  induction n with
  | zero => exact .nil
  | succ n ih => exact .cons ⟨rfl, SerializableBuffer.encodes _⟩ ih

theorem cpf_replicate (n : Nat) (t : UInt16) (bs : Bytes) :
    (Spec.cpf (List.replicate n (t, bs))).length = 2 + n * (4 + bs.length) := by
  simp only [Spec.cpf, List.length_append, le_length, List.map_replicate, List.length_flatten, List.sum_replicate_nat,
    Spec.item]

/-- Serializing into a vector that is too small throws. -/
theorem serialize_short {p : Prog Writer Unit} {bs : Bytes} (h : Spec.Writes p bs) (n : Nat) (hn : n < bs.length) (w : World) :
    ∃ what, serializeToVector n p w = (.throw (lengthError what), w) := by
  obtain ⟨what, w1, k, e, _⟩ := h.full (BufferWriter.new (List.replicate n 0)) (by
    rw [BufferWriter.new, List.length_replicate]; exact hn)
  exact ⟨what, by simp only [serializeToVector, e]⟩

theorem sendW_short {bits n : Nat} {p : CPFPacket} {bs : Bytes} (h : Spec.Writes p.serialize bs) (e : p.getLengthW bits = n)
    (hn : n < bs.length) (w : World) : ∃ what, Session.sendIOPacketW bits p w = (.throw (lengthError what), w) := by
  obtain ⟨what, e1⟩ := serialize_short h n hn w
  refine ⟨what, ?_⟩
  unfold Session.sendIOPacketW sockSendW
  rw [e]
  show Prog.andThen (Prog.andThen _ _) _ w = _
  simp only [Prog.andThen, e1]

end Eip
