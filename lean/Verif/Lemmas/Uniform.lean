import Verif.Lemmas.Props
/-
Rules for three facts about every deserializer: it consumes a prefix of its buffer, streams agree with buffers, and
it does not crash.
-/
namespace Eip
open Spec

/-- Prefix consumption and agreement with streams. -/
def Uniform {δ α : Type} (p : Prog (δ × Reader) α) : Prop :=
  ∀ (d d' : δ) (x : α) (input : Bytes) (c : Nat) (r' : Reader),
    p (d, .buffer ⟨input, c⟩) = (.ok x, (d', r')) →
    ∃ used tail, input = used ++ tail ∧ r' = .buffer ⟨tail, c + used.length⟩ ∧
      (∀ tail', p (d, .buffer ⟨used ++ tail', c⟩) = (.ok x, (d', .buffer ⟨tail', c + used.length⟩))) ∧
      (∀ (before tail' : Bytes) (junk : UInt8), before.length = c →
        p (d, .stream ⟨before ++ (used ++ tail'), c, true, junk⟩)
          = (.ok x, (d', .stream ⟨before ++ (used ++ tail'), c + used.length, true, junk⟩)))

theorem Uniform.consumes {δ α : Type} {p : Prog (δ × Reader) α} (h : Uniform p) : ConsumesPrefix p := by
  intro d d' x input c r' e
  obtain ⟨used, tail, h1, h2, h3, _⟩ := h d d' x input c r' e
  exact ⟨used, tail, h1, h2, h3⟩

theorem Uniform.agrees {δ α : Type} {p : Prog (δ × Reader) α} (h : Uniform p) : StreamAgrees p := by
  intro d d' x input before tail junk c' e
  obtain ⟨used, tail', h1, h2, _, h4⟩ := h d d' x input _ _ e
  simp only [Reader.buffer.injEq, BufferReader.mk.injEq] at h2
  obtain ⟨rfl, rfl⟩ := h2
  have := h4 before tail junk rfl
  rw [← h1] at this
  exact this

theorem Uniform.of {δ α : Type} {p : Prog (δ × Reader) α} (hc : ConsumesPrefix p) (hs : StreamAgrees p) :
    Uniform p := by
  intro d d' x input c r' e
  obtain ⟨used, tail, h1, h2, h3⟩ := hc d d' x input c r' e
  refine ⟨used, tail, h1, h2, h3, fun before tail' junk hb => ?_⟩
  subst hb
  exact hs d d' x (used ++ tail') before tail' junk _ (h3 tail')

theorem Uniform.pure {δ α : Type} (x : α) : Uniform (pure x : Prog (δ × Reader) α) := by
  intro d d' y input c r' e
  simp only [Prog.pure_apply, Prod.mk.injEq, Res.ok.injEq] at e
  obtain ⟨rfl, rfl, rfl⟩ := e
  exact ⟨[], input, rfl, rfl, fun _ => rfl, fun _ _ _ _ => rfl⟩

theorem Uniform.bind {δ α β : Type} {p : Prog (δ × Reader) α} {f : α → Prog (δ × Reader) β} (hp : Uniform p)
    (hf : ∀ x, Uniform (f x)) : Uniform (p >>= f) := by
  intro d d' y input c r' e
  obtain ⟨x, s, e1, e2⟩ := Prog.bind_eq_ok e
  obtain ⟨d1, r1⟩ := s
  obtain ⟨u1, t1, rfl, rfl, h3, h4⟩ := hp _ _ _ _ _ _ e1
  obtain ⟨u2, t2, rfl, rfl, g3, g4⟩ := hf x _ _ _ _ _ _ e2
  refine ⟨u1 ++ u2, t2, by simp, by simp [Nat.add_assoc], fun tail' => ?_, fun before tail' junk hb => ?_⟩
  · have := h3 (u2 ++ tail')
    rw [List.append_assoc, Prog.bind_ok this, g3 tail']
    simp [Nat.add_assoc]
  · have a := h4 before (u2 ++ tail') junk hb
    have b := g4 (before ++ u1) tail' junk (by simp [hb])
    rw [List.append_assoc u1, Prog.bind_ok a]
    simp only [List.append_assoc] at b
    rw [b]
    simp [Nat.add_assoc]

theorem Uniform.of_parses {δ α : Type} {p : Prog (δ × Reader) α} {S : Bytes → Prop} (hS : Covers S)
    (hp : ∀ c d cs, S cs → ∃ x d', ParsesAt c p d cs x d') : Uniform p := by
  intro d d' x input c r' e
  rcases hS.total (p := p) (c := c) (d := d) (hp c d) input with
    ⟨cs, tail, x1, d1, _, e1, h, e2⟩ | ⟨cs, m, what, d1, r1, _, _, _, e2⟩
  · rw [e] at e2
    simp only [Prod.mk.injEq, Res.ok.injEq] at e2
    obtain ⟨rfl, rfl, rfl⟩ := e2
    exact ⟨cs, tail, e1, rfl, h.buffer, fun before tail' junk hb => h.stream before tail' junk hb⟩
  · rw [e] at e2
    simp at e2

theorem Uniform.raise {δ α : Type} (e : Exn) : Uniform (Prog.raise e : Prog (δ × Reader) α) := by
  intro d d' x input c r' h
  simp [Prog.raise] at h

theorem Uniform.ite {δ α : Type} {P : Prop} [Decidable P] {p q : Prog (δ × Reader) α} (hp : Uniform p)
    (hq : Uniform q) : Uniform (if P then p else q) := by
  split
  · exact hp
  · exact hq

theorem Uniform.getObj {δ : Type} : Uniform (Eip.getObj : Prog (δ × Reader) δ) := by
  intro d d' x input c r' e
  simp only [Eip.getObj, Prod.mk.injEq, Res.ok.injEq] at e
  obtain ⟨rfl, rfl, rfl⟩ := e
  exact ⟨[], input, rfl, rfl, fun _ => rfl, fun _ _ _ _ => rfl⟩

theorem Uniform.modifyObj {δ : Type} (f : δ → δ) : Uniform (Eip.modifyObj f) := by
  intro d d' x input c r' e
  simp only [Eip.modifyObj, Prod.mk.injEq, true_and] at e
  obtain ⟨rfl, rfl⟩ := e
  exact ⟨[], input, rfl, rfl, fun _ => rfl, fun _ _ _ _ => rfl⟩

/-- A step that only looks at and changes the object. -/
theorem Uniform.onObj {δ α : Type} (p : Prog δ α) :
    Uniform (Prog.zoom (·.1) (fun d s => (d, s.2)) p : Prog (δ × Reader) α) := by
  intro d d' x input c r' e
  simp only [Prog.zoom, Prod.mk.injEq] at e
  obtain ⟨e1, rfl, rfl⟩ := e
  exact ⟨[], input, rfl, rfl, fun _ => by simp [Prog.zoom, e1], fun _ _ _ _ => by simp [Prog.zoom, e1]⟩

theorem Uniform.count {δ : Type} : Uniform (fun s => (.ok s.2.getByteCount, s) : Prog (δ × Reader) Nat) := by
  intro d d' x input c r' e
  simp only [Prod.mk.injEq, Res.ok.injEq] at e
  obtain ⟨rfl, rfl, rfl⟩ := e
  exact ⟨[], input, rfl, rfl, fun _ => rfl, fun _ _ _ _ => rfl⟩

theorem Uniform.part {δ τ α : Type} (getter : δ → τ) (setter : τ → δ → δ) {p : Prog (τ × Reader) α}
    (hp : Uniform p) : Uniform (onPart getter setter p) := by
  intro d d' x input c r' e
  simp only [onPart, Prog.zoom] at e
  cases h : p (getter d, .buffer ⟨input, c⟩) with
  | mk res t =>
    obtain ⟨t, rt⟩ := t
    rw [h] at e
    simp only [Prod.mk.injEq] at e
    obtain ⟨rfl, rfl, rfl⟩ := e
    obtain ⟨u, tl, h1, h2, h3, h4⟩ := hp _ _ _ _ _ _ h
    exact ⟨u, tl, h1, h2, fun t' => by simp only [onPart, Prog.zoom, h3 t'],
      fun b t' j hb => by simp only [onPart, Prog.zoom, h4 b t' j hb]⟩

theorem Uniform.fresh {δ τ : Type} (t : τ) {p : Prog (τ × Reader) Unit} (hp : Uniform p) :
    Uniform (parseFresh t p : Prog (δ × Reader) τ) := by
  intro d d' x input c r' e
  simp only [parseFresh] at e
  cases h : p (t, .buffer ⟨input, c⟩) with
  | mk res s =>
    obtain ⟨t', rt⟩ := s
    rw [h] at e
    cases res with
    | ok u =>
      simp only [Prod.mk.injEq, Res.ok.injEq] at e
      obtain ⟨rfl, rfl, rfl⟩ := e
      obtain ⟨u, tl, h1, h2, h3, h4⟩ := hp _ _ _ _ _ _ h
      exact ⟨u, tl, h1, h2, fun t' => by simp only [parseFresh, h3 t'],
        fun b t' j hb => by simp only [parseFresh, h4 b t' j hb]⟩
    | throw e' => simp at e
    | ub u => simp at e

theorem Uniform.readInto {δ : Type} (old : Bytes) :
    Uniform (onReader (Reader.readInto old) : Prog (δ × Reader) Bytes) :=
  Uniform.of_parses (Covers.fixed old.length) (fun c d cs h => ⟨cs, d, ParsesAt.readInto c d old cs h⟩)

theorem Uniform.skip {δ : Type} (n : Nat) : Uniform (onReader (Reader.skip n) : Prog (δ × Reader) Unit) :=
  Uniform.of_parses (Covers.fixed n) (fun c d cs h => ⟨(), d, h ▸ ParsesAt.skip c d cs⟩)

theorem Uniform.readLocal {δ : Type} (n : Nat) : Uniform (onReader (Reader.readLocal n) : Prog (δ × Reader) Bytes) :=
  Uniform.of_parses (Covers.fixed n) (fun c d cs h => ⟨cs, d, ParsesAt.readLocal c d n cs h⟩)

theorem Uniform.member {δ τ : Type} (cd : Codec τ) (getter : δ → τ) (setter : τ → δ → δ) :
    Uniform (readMember cd getter setter) :=
  Uniform.bind Uniform.getObj (fun _ => Uniform.bind (Uniform.readInto _) (fun _ => Uniform.modifyObj _))

theorem Uniform.local8 {δ : Type} : Uniform (readLocal8 : Prog (δ × Reader) UInt8) :=
  Uniform.bind (Uniform.readLocal _) (fun _ => Uniform.pure _)
theorem Uniform.local16 {δ : Type} : Uniform (readLocal16 : Prog (δ × Reader) UInt16) :=
  Uniform.bind (Uniform.readLocal _) (fun _ => Uniform.pure _)

theorem Uniform.rawLen (n : Nat) : Uniform (SerializableBuffer.deserializeLen n) :=
  Uniform.of_parses (Covers.fixed n) (fun c d cs h => ⟨(), ⟨cs⟩, h ▸ ParsesAt.rawBuffer c d cs⟩)

theorem Uniform.newBuffer {δ : Type} (n : Nat) : Uniform (readNewBuffer n : Prog (δ × Reader) SerializableBuffer) :=
  Uniform.fresh _ (Uniform.rawLen n)

/-! ### Message router responses anywhere -/

theorem MessageRouterResponse.parsesData' {δ : Type} (c : Nat) (d : δ) (n : Int) (bs : Bytes)
    (h : bs.length = n.toNat) : ParsesAt c (MessageRouterResponse.readData n) d bs (rawData bs) d := by
  by_cases hp : bs = []
  · subst hp
    exact ParsesAt.ite_neg (by simp at h; omega) (ParsesAt.pure _ _ _)
  · have h0 : 0 < bs.length := List.length_pos_iff.mpr hp
    have e : n = (bs.length : Int) := by omega
    rw [e]
    exact MessageRouterResponse.parsesData c d bs

/-- A message router response parsed with any announced length by a reader that has delivered `c` bytes: how many
bytes of response data it takes. -/
theorem MessageRouterResponse.parsesAt (c n : Nat) (m : MessageRouterResponse) (s r st k : UInt8) {a data : Bytes}
    (ha : a.length = 2 * k.toNat) (hd : data.length = (sizeToInt (sizeSub n (c + 4 + a.length))).toNat) :
    ParsesAt c (MessageRouterResponse.deserializeSized n) m
      (mrReply s r st k a data) () ⟨s, st, rawData a, rawData data⟩ := by
  have hk := k.toNat_lt
  have e1 : sizeToInt (2 * k.toNat) = (a.length : Int) := by
    rw [ha, sizeToInt_small (by omega)]
  refine ParsesAt.congr_bytes (ParsesAt.bind (ParsesAt.member_enc Codec.u8_lawful _ _ _ _ s)
    (ParsesAt.bind (ParsesAt.member_enc Codec.u8_lawful _ _ _ _ r)
    (ParsesAt.bind (ParsesAt.member_enc Codec.u8_lawful _ _ _ _ st)
    (ParsesAt.bind (ParsesAt.local8 _ _ k)
    (ParsesAt.bind (bs := a) (x := rawData a) (d1 := (⟨s, st, m.additionalStatus, m.responseData⟩ : MessageRouterResponse))
      (cs := data) (y := ()) (d2 := (⟨s, st, rawData a, rawData data⟩ : MessageRouterResponse)) ?_ ?_))))) ?_
  · rw [e1]
    exact MessageRouterResponse.parsesData _ _ _
  · refine ParsesAt.bind0 (ParsesAt.modifyObj _ _ _) (ParsesAt.bind0 (ParsesAt.count _ _) ?_)
    have e2 : c + (Codec.u8.enc s).length + (Codec.u8.enc r).length + (Codec.u8.enc st).length + (le8 k).length +
        a.length = c + 4 + a.length := by
      simp only [Codec.u8, le8_length]
    rw [e2]
    have := ParsesAt.bind (MessageRouterResponse.parsesData' (c + 4 + a.length)
        (⟨s, st, rawData a, m.responseData⟩ : MessageRouterResponse) _ data hd)
      (f := fun d => modifyObj (fun r => { r with responseData := d })) (ParsesAt.modifyObj _ _ _)
    rw [List.append_nil] at this
    exact this
  · simp [mrReply, Codec.u8, le8_eq]

/-- The inputs of `parsesAt` cover all byte strings. -/
theorem covers_mrAt (c n : Nat) : Covers (fun cs => ∃ (s r st k : UInt8) (a data : Bytes), a.length = 2 * k.toNat ∧
    data.length = (sizeToInt (sizeSub n (c + 4 + a.length))).toNat ∧ cs = mrReply s r st k a data) := by
  have := covers_mrReply.seq (T := fun x y => ∃ (s r st k : UInt8) (a : Bytes), a.length = 2 * k.toNat ∧
      y.length = (sizeToInt (sizeSub n (c + 4 + a.length))).toNat ∧ x = mrReply s r st k a []) (by
    rintro x ⟨s, r, st, k, a, ha, rfl⟩
    exact (Covers.fixed _).imp (fun cs e => ⟨s, r, st, k, a, ha, e, rfl⟩))
  refine this.imp ?_
  rintro cs ⟨x, y, _, ⟨s, r, st, k, a, ha, hy, rfl⟩, rfl⟩
  exact ⟨s, r, st, k, a, y, ha, hy, by simp [mrReply]⟩

/-- How much response data is left when the announced length counts the whole response of `4 + a + data` bytes. -/
theorem mr_data_left (c al dl : Nat) (hc : c < 2147483648) (hd : 4 + al + dl < 2147483648) :
    (sizeToInt (sizeSub (4 + al + dl) (c + 4 + al))).toNat = dl - c := by
  by_cases h : c ≤ dl
  · rw [sizeSub_of_le (by omega) (by omega), sizeToInt_small (by omega)]
    omega
  · have e : sizeSub (4 + al + dl) (c + 4 + al) = 18446744073709551616 - (c - dl) := by
      unfold sizeSub
      rw [pow64]
      omega
    rw [e]
    unfold sizeToInt
    rw [pow32]
    have e2 : ((18446744073709551616 - (c - dl) : Nat) : Int) = -((c - dl : Nat) : Int) + 4294967296 * 4294967296 := by
      omega
    rw [e2]
    have e3 : Int.bmod (-((c - dl : Nat) : Int) + 4294967296 * 4294967296) 4294967296 = -((c - dl : Nat) : Int) := by
      have := Int.add_mul_bmod_self_left (a := -((c - dl : Nat) : Int)) (b := 4294967296) (c := 4294967296)
      refine Eq.trans this ?_
      apply Int.bmod_eq_of_le_mul_two <;> omega
    rw [e3]
    omega

/-! ### The classes -/

theorem EncapHeader.uniform : Uniform EncapHeader.deserialize :=
  .bind (.member _ _ _) fun _ => .bind (.member _ _ _) fun _ => .bind (.member _ _ _) fun _ =>
  .bind (.member _ _ _) fun _ => .bind (.member _ _ _) fun _ => .member _ _ _

theorem EncapPacket.uniform : Uniform EncapPacket.deserialize :=
  .bind (.part _ _ EncapHeader.uniform) fun _ => .bind .getObj fun _ =>
    .ite (.bind (.newBuffer _) fun _ => .modifyObj _) (.modifyObj _)

theorem EncapPacket.uniformSized (n : Nat) : Uniform (EncapPacket.deserializeSized n) :=
  .bind .getObj fun _ => .ite (.raise _) (.bind (.part _ _ EncapHeader.uniform) fun _ => .bind .getObj fun _ =>
    .ite (.raise _) (.ite (.bind (.modifyObj _) fun _ => .bind (.newBuffer _) fun _ => .modifyObj _) (.modifyObj _)))

theorem CPFItem.uniformData (n : UInt16) : Uniform (CPFItem.deserializeData n) :=
  .ite (.bind (.modifyObj _) fun _ => .bind (.newBuffer _) fun _ => .modifyObj _) (.modifyObj _)

theorem CPFItem.uniform : Uniform CPFItem.deserialize :=
  .bind (.member _ _ _) fun _ => .bind .local16 fun _ => CPFItem.uniformData _

theorem CPFItem.uniformSized (n : Nat) : Uniform (CPFItem.deserializeSized n) :=
  .ite (.raise _) (.bind (.member _ _ _) fun _ => .bind .local16 fun _ => .ite (.raise _) (CPFItem.uniformData _))

theorem CPFPacket.uniformItems (n : Nat) : Uniform (CPFPacket.deserializeItems n) := by
  induction n with
  | zero => exact .pure _
  | succ n ih => exact .bind (.fresh _ CPFItem.uniform) fun _ => .bind (.modifyObj _) fun _ => ih

theorem CPFPacket.uniform : Uniform CPFPacket.deserialize :=
  .bind (.modifyObj _) fun _ => .bind .local16 fun _ => CPFPacket.uniformItems _

theorem RegisterSessionData.uniform : Uniform RegisterSessionData.deserialize :=
  .bind (.member _ _ _) fun _ => .member _ _ _

theorem SequencedAddressItem.uniform : Uniform SequencedAddressItem.deserialize :=
  .bind (.member _ _ _) fun _ => .member _ _ _

theorem SerializableBuffer.uniform : Uniform SerializableBuffer.deserialize :=
  .bind .getObj fun _ => .bind (.readInto _) fun _ => .modifyObj _

theorem SerializablePrimitive.uniform {τ : Type} (cd : Codec τ) : Uniform (SerializablePrimitive.deserialize cd) :=
  .member _ _ _

theorem IdentityItemData.uniform : Uniform IdentityItemData.deserialize :=
  .bind (.member _ _ _) fun _ => .bind (.member _ _ _) fun _ => .bind (.member _ _ _) fun _ =>
  .bind (.member _ _ _) fun _ => .bind (.member _ _ _) fun _ => .bind (.member _ _ _) fun _ =>
  .bind (.member _ _ _) fun _ => .bind (.member _ _ _) fun _ => .bind .local8 fun _ =>
  .bind (.modifyObj _) fun _ => .bind .getObj fun _ => .bind (.readInto _) fun _ => .bind (.modifyObj _) fun _ =>
  .member _ _ _

theorem ForwardOpenSuccess.uniform : Uniform ForwardOpenSuccess.deserialize :=
  .bind (.member _ _ _) fun _ => .bind (.member _ _ _) fun _ => .bind (.member _ _ _) fun _ =>
  .bind (.member _ _ _) fun _ => .bind (.member _ _ _) fun _ => .bind (.member _ _ _) fun _ =>
  .bind (.member _ _ _) fun _ => .bind .local8 fun _ => .bind (.skip _) fun _ =>
    .ite (.bind (.newBuffer _) fun _ => .modifyObj _) (.modifyObj _)

theorem ForwardCloseSuccess.uniform : Uniform ForwardCloseSuccess.deserialize :=
  .bind (.member _ _ _) fun _ => .bind (.member _ _ _) fun _ => .bind (.member _ _ _) fun _ =>
  .bind .local8 fun _ => .bind (.skip _) fun _ =>
    .ite (.bind (.newBuffer _) fun _ => .modifyObj _) (.modifyObj _)

theorem MessageRouterResponse.uniformData {δ : Type} (n : Int) :
    Uniform (MessageRouterResponse.readData n : Prog (δ × Reader) (Option Obj)) :=
  .ite (.bind (.newBuffer _) fun _ => .pure _) (.pure _)

theorem MessageRouterResponse.uniformSized (n : Nat) : Uniform (MessageRouterResponse.deserializeSized n) :=
  .bind (.member _ _ _) fun _ => .bind (.member _ _ _) fun _ => .bind (.member _ _ _) fun _ =>
  .bind .local8 fun _ => .bind (MessageRouterResponse.uniformData _) fun _ => .bind (.modifyObj _) fun _ =>
  .bind .count fun _ => .bind (MessageRouterResponse.uniformData _) fun _ => .modifyObj _

theorem RRData.uniform {δ : Type} (getBase : δ → RRData) (setBase : RRData → δ → δ) (setData : CPFItem → Prog δ Unit) :
    Uniform (RRData.deserialize getBase setBase setData) := by
  refine .bind (.part _ _ (.member _ _ _)) fun _ => .bind (.part _ _ (.member _ _ _)) fun _ =>
    .bind (.fresh _ CPFPacket.uniform) fun pkt => .ite (.raise _) ?_
  split
  · exact .ite (.raise _) (.ite (.raise _) (.ite (.raise _) (.onObj _)))
  · exact .raise _

theorem SequencedDataItem.uniform {τ : Type} {c : Class τ} (h : Uniform c.deserialize) :
    Uniform (SequencedDataItem.deserialize c) :=
  .bind .getObj fun _ => .ite (.part _ _ h) (.bind (.member _ _ _) fun _ => .bind (.modifyObj _) fun _ =>
    .bind (.part _ _ h) fun _ => .modifyObj _)

/-! ### No crash -/

/-- Stays on its buffer and throws only the two documented kinds. -/
def Safe {δ α : Type} (p : Prog (δ × Reader) α) : Prop :=
  ∀ (d : δ) (br : BufferReader), ∃ res d' br', p (d, .buffer br) = (res, (d', .buffer br')) ∧ OkOrLogic res

theorem Safe.never {δ α : Type} {p : Prog (δ × Reader) α} (h : Safe p) : NeverCrashes p := by
  intro d input c
  obtain ⟨res, d', br', e, ho⟩ := h d ⟨input, c⟩
  rw [e]; exact ho

theorem Safe.pure {δ α : Type} (x : α) : Safe (pure x : Prog (δ × Reader) α) :=
  fun d br => ⟨_, d, br, rfl, trivial⟩

theorem Safe.bind {δ α β : Type} {p : Prog (δ × Reader) α} {f : α → Prog (δ × Reader) β} (hp : Safe p)
    (hf : ∀ x, Safe (f x)) : Safe (p >>= f) := by
  intro d br
  obtain ⟨res, d', br', e, ho⟩ := hp d br
  cases res with
  | ok x =>
    rw [Prog.bind_ok e]
    exact hf x d' br'
  | throw ex => exact ⟨_, _, _, Prog.bind_throw e, ho⟩
  | ub u => exact absurd ho id

theorem Safe.raise {δ α : Type} (e : Exn) (h : e.kind = .lengthError ∨ e.kind = .logicError) :
    Safe (Prog.raise e : Prog (δ × Reader) α) := fun d br => ⟨.throw e, d, br, rfl, h⟩
theorem Safe.raiseLength {δ α : Type} (s : String) : Safe (Prog.raise (lengthError s) : Prog (δ × Reader) α) :=
  Safe.raise _ (Or.inl rfl)
theorem Safe.raiseLogic {δ α : Type} (s : String) : Safe (Prog.raise (logicError s) : Prog (δ × Reader) α) :=
  Safe.raise _ (Or.inr rfl)

theorem Safe.ite {δ α : Type} {P : Prop} [Decidable P] {p q : Prog (δ × Reader) α} (hp : Safe p)
    (hq : Safe q) : Safe (if P then p else q) := by
  split
  · exact hp
  · exact hq

theorem Safe.getObj {δ : Type} : Safe (Eip.getObj : Prog (δ × Reader) δ) := fun d br => ⟨_, d, br, rfl, trivial⟩
theorem Safe.modifyObj {δ : Type} (f : δ → δ) : Safe (Eip.modifyObj f) := fun d br => ⟨_, f d, br, rfl, trivial⟩
theorem Safe.count {δ : Type} : Safe (fun s => (.ok s.2.getByteCount, s) : Prog (δ × Reader) Nat) :=
  fun d br => ⟨_, d, br, rfl, trivial⟩

theorem Safe.part {δ τ α : Type} (getter : δ → τ) (setter : τ → δ → δ) {p : Prog (τ × Reader) α}
    (hp : Safe p) : Safe (onPart getter setter p) := by
  intro d br
  obtain ⟨res, t, br', e, ho⟩ := hp (getter d) br
  exact ⟨res, setter t d, br', by simp only [onPart, Prog.zoom, e], ho⟩

theorem Safe.fresh {δ τ : Type} (t : τ) {p : Prog (τ × Reader) Unit} (hp : Safe p) :
    Safe (parseFresh t p : Prog (δ × Reader) τ) := by
  intro d br
  obtain ⟨res, t', br', e, ho⟩ := hp t br
  cases res with
  | ok x => exact ⟨.ok t', d, br', by simp only [parseFresh, e], trivial⟩
  | throw ex => exact ⟨.throw ex, d, br', by simp only [parseFresh, e], ho⟩
  | ub u => exact absurd ho id

theorem Safe.readBuffer (n : Nat) (br : BufferReader) :
    ∃ res br', BufferReader.readBuffer n br = (res, br') ∧ OkOrLogic res := by
  unfold BufferReader.readBuffer
  split
  · exact ⟨_, _, rfl, Or.inl rfl⟩
  · exact ⟨_, _, rfl, trivial⟩

theorem Safe.readInto {δ : Type} (old : Bytes) : Safe (onReader (Reader.readInto old) : Prog (δ × Reader) Bytes) := by
  intro d br
  obtain ⟨res, br', e, ho⟩ := Safe.readBuffer old.length br
  exact ⟨res, d, br', by simp only [onReader, Prog.zoom, Reader.readInto, e], ho⟩

theorem Safe.readLocal {δ : Type} (n : Nat) : Safe (onReader (Reader.readLocal n) : Prog (δ × Reader) Bytes) := by
  intro d br
  obtain ⟨res, br', e, ho⟩ := Safe.readBuffer n br
  exact ⟨res, d, br', by simp only [onReader, Prog.zoom, Reader.readLocal, e], ho⟩

theorem Safe.skip {δ : Type} (n : Nat) : Safe (onReader (Reader.skip n) : Prog (δ × Reader) Unit) := by
  intro d br
  have : ∃ res br', BufferReader.skip n br = (res, br') ∧ OkOrLogic res := by
    unfold BufferReader.skip
    split
    · exact ⟨_, _, rfl, Or.inl rfl⟩
    · exact ⟨_, _, rfl, trivial⟩
  obtain ⟨res, br', e, ho⟩ := this
  exact ⟨res, d, br', by simp only [onReader, Prog.zoom, Reader.skip, e], ho⟩

theorem Safe.member {δ τ : Type} (cd : Codec τ) (getter : δ → τ) (setter : τ → δ → δ) :
    Safe (readMember cd getter setter) :=
  Safe.bind Safe.getObj (fun _ => Safe.bind (Safe.readInto _) (fun _ => Safe.modifyObj _))

theorem Safe.local8 {δ : Type} : Safe (readLocal8 : Prog (δ × Reader) UInt8) :=
  Safe.bind (Safe.readLocal _) (fun _ => Safe.pure _)
theorem Safe.local16 {δ : Type} : Safe (readLocal16 : Prog (δ × Reader) UInt16) :=
  Safe.bind (Safe.readLocal _) (fun _ => Safe.pure _)

theorem Safe.rawLen (n : Nat) : Safe (SerializableBuffer.deserializeLen n) := by
  intro d br
  obtain ⟨res, br', e, ho⟩ := Safe.readBuffer n br
  cases res with
  | ok bs => exact ⟨.ok (), ⟨bs⟩, br', by simp only [SerializableBuffer.deserializeLen, e], trivial⟩
  | throw ex => exact ⟨.throw ex, d, br', by simp only [SerializableBuffer.deserializeLen, e], ho⟩
  | ub u => exact absurd ho id

theorem Safe.newBuffer {δ : Type} (n : Nat) : Safe (readNewBuffer n : Prog (δ × Reader) SerializableBuffer) :=
  Safe.fresh _ (Safe.rawLen n)

theorem EncapHeader.safe : Safe EncapHeader.deserialize :=
  .bind (.member _ _ _) fun _ => .bind (.member _ _ _) fun _ => .bind (.member _ _ _) fun _ =>
  .bind (.member _ _ _) fun _ => .bind (.member _ _ _) fun _ => .member _ _ _

theorem EncapPacket.safe : Safe EncapPacket.deserialize :=
  .bind (.part _ _ EncapHeader.safe) fun _ => .bind .getObj fun _ =>
    .ite (.bind (.newBuffer _) fun _ => .modifyObj _) (.modifyObj _)

theorem EncapPacket.safeSized (n : Nat) : Safe (EncapPacket.deserializeSized n) :=
  .bind .getObj fun _ => .ite (.raiseLength _) (.bind (.part _ _ EncapHeader.safe) fun _ => .bind .getObj fun _ =>
    .ite (.raiseLength _)
      (.ite (.bind (.modifyObj _) fun _ => .bind (.newBuffer _) fun _ => .modifyObj _) (.modifyObj _)))

theorem CPFItem.safeData (n : UInt16) : Safe (CPFItem.deserializeData n) :=
  .ite (.bind (.modifyObj _) fun _ => .bind (.newBuffer _) fun _ => .modifyObj _) (.modifyObj _)

theorem CPFItem.safe : Safe CPFItem.deserialize :=
  .bind (.member _ _ _) fun _ => .bind .local16 fun _ => CPFItem.safeData _

theorem CPFItem.safeSized (n : Nat) : Safe (CPFItem.deserializeSized n) :=
  .ite (.raiseLength _) (.bind (.member _ _ _) fun _ => .bind .local16 fun _ =>
    .ite (.raiseLength _) (CPFItem.safeData _))

theorem CPFPacket.safeItems (n : Nat) : Safe (CPFPacket.deserializeItems n) := by
  induction n with
  | zero => exact .pure _
  | succ n ih => exact .bind (.fresh _ CPFItem.safe) fun _ => .bind (.modifyObj _) fun _ => ih

theorem CPFPacket.safe : Safe CPFPacket.deserialize :=
  .bind (.modifyObj _) fun _ => .bind .local16 fun _ => CPFPacket.safeItems _

theorem RegisterSessionData.safe : Safe RegisterSessionData.deserialize :=
  .bind (.member _ _ _) fun _ => .member _ _ _

theorem SequencedAddressItem.safe : Safe SequencedAddressItem.deserialize :=
  .bind (.member _ _ _) fun _ => .member _ _ _

theorem SerializableBuffer.safe : Safe SerializableBuffer.deserialize :=
  .bind .getObj fun _ => .bind (.readInto _) fun _ => .modifyObj _

theorem SerializablePrimitive.safe {τ : Type} (cd : Codec τ) : Safe (SerializablePrimitive.deserialize cd) :=
  .member _ _ _

theorem IdentityItemData.safe : Safe IdentityItemData.deserialize :=
  .bind (.member _ _ _) fun _ => .bind (.member _ _ _) fun _ => .bind (.member _ _ _) fun _ =>
  .bind (.member _ _ _) fun _ => .bind (.member _ _ _) fun _ => .bind (.member _ _ _) fun _ =>
  .bind (.member _ _ _) fun _ => .bind (.member _ _ _) fun _ => .bind .local8 fun _ =>
  .bind (.modifyObj _) fun _ => .bind .getObj fun _ => .bind (.readInto _) fun _ => .bind (.modifyObj _) fun _ =>
  .member _ _ _

theorem ForwardOpenSuccess.safe : Safe ForwardOpenSuccess.deserialize :=
  .bind (.member _ _ _) fun _ => .bind (.member _ _ _) fun _ => .bind (.member _ _ _) fun _ =>
  .bind (.member _ _ _) fun _ => .bind (.member _ _ _) fun _ => .bind (.member _ _ _) fun _ =>
  .bind (.member _ _ _) fun _ => .bind .local8 fun _ => .bind (.skip _) fun _ =>
    .ite (.bind (.newBuffer _) fun _ => .modifyObj _) (.modifyObj _)

theorem ForwardCloseSuccess.safe : Safe ForwardCloseSuccess.deserialize :=
  .bind (.member _ _ _) fun _ => .bind (.member _ _ _) fun _ => .bind (.member _ _ _) fun _ =>
  .bind .local8 fun _ => .bind (.skip _) fun _ =>
    .ite (.bind (.newBuffer _) fun _ => .modifyObj _) (.modifyObj _)

theorem MessageRouterResponse.safeData {δ : Type} (n : Int) :
    Safe (MessageRouterResponse.readData n : Prog (δ × Reader) (Option Obj)) :=
  .ite (.bind (.newBuffer _) fun _ => .pure _) (.pure _)

theorem MessageRouterResponse.safeSized (n : Nat) : Safe (MessageRouterResponse.deserializeSized n) :=
  .bind (.member _ _ _) fun _ => .bind (.member _ _ _) fun _ => .bind (.member _ _ _) fun _ =>
  .bind .local8 fun _ => .bind (MessageRouterResponse.safeData _) fun _ => .bind (.modifyObj _) fun _ =>
  .bind .count fun _ => .bind (MessageRouterResponse.safeData _) fun _ => .modifyObj _

theorem RRData.safe {δ : Type} (getBase : δ → RRData) (setBase : RRData → δ → δ) (setData : CPFItem → Prog δ Unit)
    (hs : ∀ i d, OkOrLogic (setData i d).1) : Safe (RRData.deserialize getBase setBase setData) := by
  refine .bind (.part _ _ (.member _ _ _)) fun _ => .bind (.part _ _ (.member _ _ _)) fun _ =>
    .bind (.fresh _ CPFPacket.safe) fun pkt => .ite (.raiseLogic _) ?_
  split
  · refine .ite (.raiseLogic _) (.ite (.raiseLogic _) (.ite (.raiseLogic _) ?_))
    next i0 i1 _ _ =>
    intro d br
    exact ⟨(setData i1 d).1, (setData i1 d).2, br, rfl, hs i1 d⟩
  · exact .raiseLogic _

theorem SequencedDataItem.safe {τ : Type} {c : Class τ} (h : Safe c.deserialize) :
    Safe (SequencedDataItem.deserialize c) :=
  .bind .getObj fun _ => .ite (.part _ _ h) (.bind (.member _ _ _) fun _ => .bind (.modifyObj _) fun _ =>
    .bind (.part _ _ h) fun _ => .modifyObj _)

theorem SequencedDataItem.deserialize_fresh {τ : Type} (c : Class τ) (b : τ) (sq : UInt16) (r : Reader) :
    SequencedDataItem.deserialize c (⟨b, sq, false⟩, r) =
      (do readMember .u16 (fun d : SequencedDataItem τ => d.sequenceNum) (fun v d => { d with sequenceNum := v })
          modifyObj (fun d => { d with alreadyDeserializing := true })
          SequencedDataItem.onBase c.deserialize
          modifyObj (fun d => { d with alreadyDeserializing := false }) : Prog (SequencedDataItem τ × Reader) Unit)
        (⟨b, sq, false⟩, r) := by
  unfold SequencedDataItem.deserialize
  have h : (getObj : Prog (SequencedDataItem τ × Reader) _) (⟨b, sq, false⟩, r) = (.ok ⟨b, sq, false⟩, (⟨b, sq, false⟩, r)) :=
    rfl
  rw [Prog.bind_ok h]
  simp only [Bool.false_eq_true, if_false]

theorem SequencedDataItem.neverCrashes {τ : Type} {c : Class τ} (h : NeverCrashes c.deserialize) :
    NeverCrashes (SequencedDataItem.deserialize c) := by
  have hb : NeverCrashes (SequencedDataItem.onBase c.deserialize) := by
    intro d input n
    have := h d.base input n
    simp only [SequencedDataItem.onBase, onPart, Prog.zoom]
    exact this
  have hm : ∀ (p : Prog (SequencedDataItem τ × Reader) Unit) (f : SequencedDataItem τ → SequencedDataItem τ),
      NeverCrashes p → NeverCrashes (p >>= fun _ => modifyObj f) := by
    intro p f hp d input n
    have := hp d input n
    cases e : p (d, .buffer ⟨input, n⟩) with
    | mk res s =>
      rw [e] at this
      cases res with
      | ok x => rw [Prog.bind_ok e]; trivial
      | throw ex => rw [Prog.bind_throw e]; exact this
      | ub u => exact absurd this id
  intro d input n
  obtain ⟨b, sq, f⟩ := d
  cases f with
  | true => exact hb ⟨b, sq, true⟩ input n
  | false =>
    rw [SequencedDataItem.deserialize_fresh]
    obtain ⟨res, d', br', e, ho⟩ := Safe.member .u16 (fun d : SequencedDataItem τ => d.sequenceNum)
      (fun v d => { d with sequenceNum := v }) ⟨b, sq, false⟩ ⟨input, n⟩
    cases res with
    | ok x =>
      rw [Prog.bind_ok e]
      exact hm _ _ hb { d' with alreadyDeserializing := true } br'.rest br'.byteCount
    | throw ex => rw [Prog.bind_throw e]; exact ho
    | ub u => exact absurd ho id

theorem RRDataResponse.setData_safe (d : RRDataResponse) (t : UInt16) {body : Bytes} (hne : body ≠ []) :
    ∃ x d', RRDataResponse.setData ⟨t, rawData body⟩ d = (x, d') ∧ OkOrLogic x := by
  obtain ⟨res, m, br, e, ho⟩ := MessageRouterResponse.safeSized body.length d.mr ⟨body, 0⟩
  exact ⟨res, { d with mr := m }, by rw [RRDataResponse.setData_eq d t hne, e], ho⟩

/-- A sized read into a raw sequenced item that is not in the middle of a parse, given the length of the data. -/
theorem SequencedDataItem.raw_fresh {n k : Nat} (hk : sizeSub n 2 = k) (b : SerializableBuffer) (sq : UInt16) (r : Reader) :
    SequencedDataItem.deserializeLen SerializableBuffer.cls n (⟨b, sq, false⟩, r) =
      (do readMember .u16 (fun d : SequencedDataItem SerializableBuffer => d.sequenceNum) (fun v d => { d with sequenceNum := v })
          modifyObj (fun d => { d with alreadyDeserializing := true })
          SequencedDataItem.onBase (SerializableBuffer.deserializeLen k)
          modifyObj (fun d => { d with alreadyDeserializing := false }) :
            Prog (SequencedDataItem SerializableBuffer × Reader) Unit) (⟨b, sq, false⟩, r) := by
  unfold SequencedDataItem.deserializeLen
  rw [hk]
  rfl

/-- A sized read into a raw sequenced item that is in the middle of a parse. -/
theorem SequencedDataItem.raw_stuck {n k : Nat} (hk : sizeSub n 2 = k) (b : SerializableBuffer) (sq : UInt16) (r : Reader) :
    SequencedDataItem.deserializeLen SerializableBuffer.cls n (⟨b, sq, true⟩, r) =
      SequencedDataItem.onBase (SerializableBuffer.deserializeLen k) (⟨b, sq, true⟩, r) := by
  unfold SequencedDataItem.deserializeLen
  rw [hk]
  rfl

end Eip
