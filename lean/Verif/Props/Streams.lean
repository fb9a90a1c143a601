import Verif.Lemmas.Props
/-
C01, C02, C03, C79: readers, writers and integers.
-/
namespace Eip
open Spec

/-! ### C01 -/

/-- One call on the library's buffer reader: the bytes delivered, or the exception. -/
def runReadCall (c : ReadCall) : Prog BufferReader Bytes :=
  match c with
  | .read n => BufferReader.readBuffer n
  | .skip n => do
    BufferReader.skip n
    pure []

/-- A sequence of calls where the caller goes on after exceptions. -/
def runReadCalls : List ReadCall → BufferReader → List (Res Bytes) × BufferReader
  | [], r => ([], r)
  | c :: cs, r =>
    match runReadCall c r with
    | (x, r') =>
      match runReadCalls cs r' with
      | (xs, r'') => (x :: xs, r'')

/-- `none` stands for a `length_error`. -/
def Delivers (x : Res Bytes) (y : Option Bytes) : Prop :=
  match y with
  | some bs => x = .ok bs
  | none => ∃ what, x = .throw (lengthError what)

/-- C01. Every call delivers the next bytes of the buffer or is refused without effect; the byte count is the
position. -/
theorem c01_reader_stays_in_buffer (buf : Bytes) (calls : List ReadCall) :
    ∃ outs r, runReadCalls calls (BufferReader.new buf) = (outs, r) ∧
      Pointwise Delivers outs (expectedReads buf 0 calls).1 ∧
      r.byteCount = (expectedReads buf 0 calls).2 ∧
      r.rest = buf.drop (expectedReads buf 0 calls).2 ∧ (expectedReads buf 0 calls).2 ≤ buf.length := by
  suffices h : ∀ (calls : List ReadCall) (pos : Nat), pos ≤ buf.length →
      ∃ outs r, runReadCalls calls ⟨buf.drop pos, pos⟩ = (outs, r) ∧
        Pointwise Delivers outs (expectedReads buf pos calls).1 ∧
        r.byteCount = (expectedReads buf pos calls).2 ∧
        r.rest = buf.drop (expectedReads buf pos calls).2 ∧ (expectedReads buf pos calls).2 ≤ buf.length from
    h calls 0 (Nat.zero_le _)
  intro calls
  induction calls with
  | nil => intro pos h; exact ⟨[], _, rfl, .nil, rfl, rfl, h⟩
  | cons c cs ih =>
    intro pos h
    have step : ∃ x, runReadCall c ⟨buf.drop pos, pos⟩ =
        (x, ⟨buf.drop (c.advance buf pos), c.advance buf pos⟩) ∧ Delivers x (c.expected buf pos) := by
      cases c with
      | read n =>
        by_cases hn : pos + n ≤ buf.length
        · refine ⟨.ok ((buf.drop pos).take n), ?_, by simp [ReadCall.expected, hn, Delivers]⟩
          simp only [runReadCall, BufferReader.readBuffer]
          rw [if_neg (by simp; omega)]
          simp [ReadCall.advance, ReadCall.size, hn]
        · refine ⟨.throw (lengthError "Buffer too small to deserialize value"), ?_, ?_⟩
          · simp only [runReadCall, BufferReader.readBuffer]
            rw [if_pos (by simp; omega)]
            simp [ReadCall.advance, ReadCall.size, hn]
          · simp only [ReadCall.expected, hn, Delivers]; exact ⟨_, rfl⟩
      | skip n =>
        by_cases hn : pos + n ≤ buf.length
        · refine ⟨.ok [], ?_, by simp [ReadCall.expected, hn, Delivers]⟩
          simp only [runReadCall, Prog.bind_def, Prog.andThen, BufferReader.skip]
          rw [if_neg (by simp; omega)]
          simp [ReadCall.advance, ReadCall.size, hn, Prog.pure_apply]
        · refine ⟨.throw (lengthError "End of buffer reached skipping forward"), ?_, ?_⟩
          · simp only [runReadCall, Prog.bind_def, Prog.andThen, BufferReader.skip]
            rw [if_pos (by simp; omega)]
            simp [ReadCall.advance, ReadCall.size, hn]
          · simp only [ReadCall.expected, hn, Delivers]; exact ⟨_, rfl⟩
    obtain ⟨x, e, hx⟩ := step
    have hadv : c.advance buf pos ≤ buf.length := by
      unfold ReadCall.advance; split <;> omega
    obtain ⟨outs, r, e', h1, h2, h3, h4⟩ := ih (c.advance buf pos) hadv
    refine ⟨x :: outs, r, ?_, .cons hx h1, h2, h3, h4⟩
    simp only [runReadCalls, e, e']

/-- A sequence with a refused call in the middle. -/
example : expectedReads [1, 2, 3, 4, 5] 0 [.read 2, .read 9, .skip 1, .read 2, .read 1]
    = ([some [1, 2], none, some [], some [4, 5], none], 5) := by decide

/-! ### C02 -/

/-- A sequence of writes where the caller goes on after exceptions: which calls threw, and the writer. -/
def runWrites : List Bytes → BufferWriter → List (Res Unit) × BufferWriter
  | [], w => ([], w)
  | c :: cs, w =>
    match BufferWriter.writeBytes c w with
    | (x, w') =>
      match runWrites cs w' with
      | (xs, w'') => (x :: xs, w'')

/-- C02. After any writes the buffer holds the accepted chunks, then its old contents. -/
theorem c02_writer_stays_in_buffer (buf : Bytes) (chunks : List Bytes) :
    ∃ outs w, runWrites chunks (BufferWriter.new buf) = (outs, w) ∧
      w.memory = (acceptedWrites buf.length chunks).flatten ++
        buf.drop (acceptedWrites buf.length chunks).flatten.length ∧
      w.memory.length = buf.length ∧
      w.getByteCount = (acceptedWrites buf.length chunks).flatten.length ∧
      ∀ x ∈ outs, x = .ok () ∨ ∃ what, x = .throw (lengthError what) := by
  suffices h : ∀ (chunks : List Bytes) (w : BufferWriter),
      ∃ outs w', runWrites chunks w = (outs, w') ∧
        w'.written = w.written ++ (acceptedWrites w.rest.length chunks).flatten ∧
        w'.rest = w.rest.drop (acceptedWrites w.rest.length chunks).flatten.length ∧
        (acceptedWrites w.rest.length chunks).flatten.length ≤ w.rest.length ∧
        w'.byteCount = w.byteCount + (acceptedWrites w.rest.length chunks).flatten.length ∧
        ∀ x ∈ outs, x = .ok () ∨ ∃ what, x = .throw (lengthError what) by
    obtain ⟨outs, w, e, h1, h2, h3, h4, h5⟩ := h chunks (BufferWriter.new buf)
    simp only [BufferWriter.new] at h1 h2 h3 h4
    refine ⟨outs, w, e, ?_, ?_, ?_, h5⟩
    · simp only [BufferWriter.memory, h1, h2, List.nil_append]
    · simp only [BufferWriter.memory, h1, h2, List.nil_append, List.length_append, List.length_drop]; omega
    · simp only [BufferWriter.getByteCount, h4, Nat.zero_add]
  intro chunks
  induction chunks with
  | nil => intro w; exact ⟨[], w, rfl, by simp [acceptedWrites], by simp [acceptedWrites], by simp [acceptedWrites],
      by simp [acceptedWrites], by simp⟩
  | cons c cs ih =>
    intro w
    by_cases hc : c.length ≤ w.rest.length
    · obtain ⟨outs, w', e, h1, h2, h3, h4, h5⟩ := ih ⟨w.written ++ c, w.rest.drop c.length, w.byteCount + c.length⟩
      simp only [List.length_drop] at h1 h2 h3 h4
      refine ⟨.ok () :: outs, w', ?_, ?_, ?_, ?_, ?_, ?_⟩
      · simp only [runWrites, BufferWriter.writeBytes, BufferWriter.writeBuffer]
        rw [if_neg (by omega)]
        simp only [e]
      · rw [h1]; simp [acceptedWrites, hc]
      · rw [h2]; simp [acceptedWrites, hc]
      · simp only [acceptedWrites, hc, if_true, List.flatten_cons, List.length_append]; omega
      · rw [h4]; simp [acceptedWrites, hc]; omega
      · intro x hx
        rcases List.mem_cons.mp hx with rfl | hx
        · exact Or.inl rfl
        · exact h5 x hx
    · obtain ⟨outs, w', e, h1, h2, h3, h4, h5⟩ := ih w
      refine ⟨.throw (lengthError "Buffer to small to serialize value") :: outs, w', ?_, ?_, ?_, ?_, ?_, ?_⟩
      · simp only [runWrites, BufferWriter.writeBytes, BufferWriter.writeBuffer]
        rw [if_pos (by omega)]
        simp only [e]
      · rw [h1]; simp [acceptedWrites, hc]
      · rw [h2]; simp [acceptedWrites, hc]
      · simp only [acceptedWrites, hc, if_false]; exact h3
      · rw [h4]; simp [acceptedWrites, hc]
      · intro x hx
        rcases List.mem_cons.mp hx with rfl | hx
        · exact Or.inr ⟨_, rfl⟩
        · exact h5 x hx

/-- A write is refused exactly when it does not fit, and then changes nothing. -/
theorem c02_refused_write_changes_nothing (w : BufferWriter) (c : Bytes) :
    (w.rest.length < c.length → ∃ what, BufferWriter.writeBytes c w = (.throw (lengthError what), w)) ∧
    (c.length ≤ w.rest.length → ∃ w', BufferWriter.writeBytes c w = (.ok (), w')) := by
  constructor
  · intro h
    exact ⟨"Buffer to small to serialize value", by
      simp only [BufferWriter.writeBytes, BufferWriter.writeBuffer]; rw [if_pos h]⟩
  · intro h
    exact ⟨⟨w.written ++ c, w.rest.drop c.length, w.byteCount + c.length⟩, by
      simp only [BufferWriter.writeBytes, BufferWriter.writeBuffer]; rw [if_neg (by omega)]⟩

/-- Three writes into five bytes, the second of which does not fit. -/
example : acceptedWrites 5 [[1, 2], [3, 4, 5, 6], [7]] = [[1, 2], [7]] ∧
    (runWrites [[1, 2], [3, 4, 5, 6], [7]] (BufferWriter.new [0, 0, 0, 0, 9])).2.memory = [1, 2, 7, 0, 9] := by
  decide

/-! ### C03 -/

/-- C03. Integers are written least significant byte first, whatever writer is used. -/
theorem c03_integers_little_endian :
    (∀ v : UInt8, Writes (Writer.write8 v) [v]) ∧
    (∀ v : UInt16, Writes (Writer.write16 v) [UInt8.ofNat (v.toNat % 256), UInt8.ofNat (v.toNat / 256)]) ∧
    (∀ v : UInt32, Writes (Writer.write32 v) [UInt8.ofNat (v.toNat % 256), UInt8.ofNat (v.toNat / 256 % 256),
      UInt8.ofNat (v.toNat / 65536 % 256), UInt8.ofNat (v.toNat / 16777216)]) := by
  refine ⟨fun v => Writes.of_eq (Writes.write8 v) ?_, fun v => Writes.of_eq (Writes.write16 v) ?_,
    fun v => Writes.of_eq (Writes.write32 v) ?_⟩
  · simp only [le8, leBytes, Nat.mod_eq_of_lt v.toNat_lt]
    simp
  · have := v.toNat_lt
    have e : v.toNat / 256 % 256 = v.toNat / 256 := by omega
    simp only [le16, leBytes, e]
  · have := v.toNat_lt
    have e : v.toNat / 16777216 % 256 = v.toNat / 16777216 := by omega
    simp only [le32, leBytes, Nat.div_div_eq_div_mul]
    simp [e]

/-- C03. Reading the bytes of an integer gives the integer back: members, locals and attribute values, from buffers
and streams. -/
theorem c03_integers_round_trip :
    (∀ v : UInt8, Parses (δ := Unit) readLocal8 () (le 1 v.toNat) v ()) ∧
    (∀ v : UInt16, Parses (δ := Unit) readLocal16 () (le 2 v.toNat) v ()) ∧
    (∀ (d : SerializablePrimitive UInt8) (v : UInt8),
      Parses (SerializablePrimitive.deserialize .u8) d (le 1 v.toNat) () ⟨v⟩) ∧
    (∀ (d : SerializablePrimitive UInt16) (v : UInt16),
      Parses (SerializablePrimitive.deserialize .u16) d (le 2 v.toNat) () ⟨v⟩) ∧
    (∀ (d : SerializablePrimitive UInt32) (v : UInt32),
      Parses (SerializablePrimitive.deserialize .u32) d (le 4 v.toNat) () ⟨v⟩) := by
  refine ⟨fun v c => ?_, fun v c => ?_, fun d v c => ?_, fun d v c => ?_, fun d v c => ?_⟩
  · rw [← le8_eq_le]; exact ParsesAt.local8 c () v
  · rw [← le16_eq_le]; exact ParsesAt.local16 c () v
  · rw [← le8_eq_le]; exact ParsesAt.member_enc Codec.u8_lawful c _ _ d v
  · rw [← le16_eq_le]; exact ParsesAt.member_enc Codec.u16_lawful c _ _ d v
  · rw [← le32_eq_le]; exact ParsesAt.member_enc Codec.u32_lawful c _ _ d v

/-- C03. Every byte string of size `k` encodes exactly one number below `256 ^ k`. -/
theorem c03_every_string_is_one_integer (k : Nat) (bs : Bytes) (h : bs.length = k) :
    (value bs < 256 ^ k ∧ le k (value bs) = bs) ∧ ∀ n, n < 256 ^ k → le k n = bs → n = value bs := by
  subst h
  rw [value_eq_leVal]
  refine ⟨⟨leVal_lt bs, by rw [le_eq_leBytes]; exact leBytes_leVal bs⟩, ?_⟩
  intro n hn e
  rw [le_eq_leBytes] at e
  have := leVal_leBytes bs.length n
  rw [e, Nat.mod_eq_of_lt hn] at this
  exact this.symm

/-- The session handle of the library's tests. -/
example : le 4 0x12345678 = [0x78, 0x56, 0x34, 0x12] ∧ value [0x78, 0x56, 0x34, 0x12] = 0x12345678 := by decide

end Eip
