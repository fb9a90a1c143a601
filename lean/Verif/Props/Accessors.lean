import Verif.Props.Parsing
/-
C103, C104, C106: reading the contents of items, responses and raw buffers.
-/
namespace Eip
open Spec

/-! ### C103 -/

/-- C103 is false for items that hold a sequenced raw buffer. Before the item is sent, a raw buffer taken from it lacks the
sequence number; after it has been received, the sequence number is part of the data. -/
theorem c103_violated_sequenced (t seq : UInt16) (bs : Bytes) (small : 2 + bs.length < 65536) (i0 : CPFItem)
    (b : SerializableBuffer) (tail : Bytes) (c : Nat) :
    let built : CPFItem := ⟨t, some (SequencedDataItem.obj (SerializableBuffer.obj ⟨bs⟩) seq)⟩
    ∃ received, Encodes built.obj (item t (le 2 seq.toNat ++ bs)) ∧
      CPFItem.cls.deserialize (i0, .buffer ⟨item t (le 2 seq.toNat ++ bs) ++ tail, c⟩) =
        (.ok (), (received, .buffer ⟨tail, c + (item t (le 2 seq.toNat ++ bs)).length⟩)) ∧
      built.getDataAs SerializableBuffer.cls b = (.ok (), ⟨bs⟩) ∧
      received.getDataAs SerializableBuffer.cls b = (.ok (), ⟨le 2 seq.toNat ++ bs⟩) := by
  have he := SequencedDataItem.encodes (SerializableBuffer.encodes ⟨bs⟩) seq
  have hl : (le 2 seq.toNat ++ bs).length < 65536 := by simp; omega
  refine ⟨⟨t, rawData (le 2 seq.toNat ++ bs)⟩, ?_, (CPFItem.parses i0 t hl c).buffer tail, rfl, ?_⟩
  · exact CPFItem.encodes _ (bs := le 2 seq.toNat ++ bs) he hl
  · rw [CPFItem.getDataAs, rawData_of_ne (by simp [le])]
    rfl

/-- C103 is false for structured data taken as a raw buffer: an exception before the item is sent, the bytes after it has
been received. -/
theorem c103_violated_structured (t : UInt16) (o : Obj) (bs : Bytes) (h : Encodes o bs) (structured : o.asBuffer = none)
    (some' : bs ≠ []) (small : bs.length < 65536) (i0 : CPFItem) (b : SerializableBuffer) (tail : Bytes) (c : Nat) :
    let built : CPFItem := ⟨t, some o⟩
    ∃ received what, Encodes built.obj (item t bs) ∧
      CPFItem.cls.deserialize (i0, .buffer ⟨item t bs ++ tail, c⟩) =
        (.ok (), (received, .buffer ⟨tail, c + (item t bs).length⟩)) ∧
      built.getDataAs SerializableBuffer.cls b = (.throw (logicError what), b) ∧
      received.getDataAs SerializableBuffer.cls b = (.ok (), ⟨bs⟩) := by
  obtain ⟨what, e⟩ := (c65_copy SerializableBuffer.cls b).2.2.1 o _ rfl structured
  refine ⟨⟨t, rawData bs⟩, what, CPFItem.encodes _ h small, (CPFItem.parses i0 t small c).buffer tail, e, ?_⟩
  rw [CPFItem.getDataAs, rawData_of_ne some']
  rfl

/-- C103 is false for data without bytes: it can be read before the item is sent; reading it from the received item is
undefined behaviour. -/
theorem c103_violated_empty (t : UInt16) (i0 : CPFItem) (b : SerializableBuffer) (tail : Bytes) (c : Nat) :
    let built : CPFItem := ⟨t, some (SerializableBuffer.obj ⟨[]⟩)⟩
    ∃ received, Encodes built.obj (item t []) ∧
      CPFItem.cls.deserialize (i0, .buffer ⟨item t [] ++ tail, c⟩) =
        (.ok (), (received, .buffer ⟨tail, c + (item t []).length⟩)) ∧
      built.getDataAs SerializableBuffer.cls b = (.ok (), ⟨[]⟩) ∧
      received.getDataAs SerializableBuffer.cls b = (.ub .nullDeref, b) :=
  ⟨⟨t, rawData []⟩, CPFItem.encodes _ (SerializableBuffer.encodes ⟨[]⟩) (by simp), (CPFItem.parses i0 t (by simp) c).buffer tail,
    rfl, rfl⟩

/-- C103 (partial: raw buffers, and structured data read as structured data; not empty). What `getDataAs` makes of the
item before it is sent is what it makes of the item parsed from its bytes, for every destination. Missing: the cases
above, for which it is false. -/
theorem c103_same_partial {δ : Type} (cls : Class δ) (d : δ) (t : UInt16) (o : Obj) (bs : Bytes) (h : Encodes o bs)
    (kind : o = SerializableBuffer.obj ⟨bs⟩ ∨ (o.asBuffer = none ∧ cls.assignBuffer = none)) (some' : bs ≠ [])
    (small : bs.length < 65536) (i0 : CPFItem) (tail : Bytes) (c : Nat) :
    let built : CPFItem := ⟨t, some o⟩
    ∃ received, Encodes built.obj (item t bs) ∧
      CPFItem.cls.deserialize (i0, .buffer ⟨item t bs ++ tail, c⟩) =
        (.ok (), (received, .buffer ⟨tail, c + (item t bs).length⟩)) ∧
      received.getDataAs cls d = built.getDataAs cls d := by
  refine ⟨⟨t, rawData bs⟩, CPFItem.encodes _ h small, (CPFItem.parses i0 t small c).buffer tail, ?_⟩
  rw [CPFItem.getDataAs, rawData_of_ne some']
  rcases kind with rfl | ⟨ho, hc⟩
  · rfl
  · show copySerializable cls _ d = copySerializable cls o d
    rw [(c65_copy cls d).1 bs hc, (c65_copy cls d).2.1 o bs hc ho h]

/-- C103 (partial), the exact result for a sequenced raw buffer read into structured data before it is sent: the sequence
number is not seen, and the destination is told two bytes more than there are. -/
theorem c103_sequenced_partial {δ : Type} (cls : Class δ) (d : δ) (t seq : UInt16) (bs : Bytes)
    (hc : cls.assignBuffer = none) :
    CPFItem.getDataAs ⟨t, some (SequencedDataItem.obj (SerializableBuffer.obj ⟨bs⟩) seq)⟩ cls d =
      parsed cls bs (2 + bs.length) d := by
  simp only [CPFItem.getDataAs, copySerializable, SequencedDataItem.obj, SerializableBuffer.obj, hc, deserializeFrom_eq,
    SerializableBuffer.getLength]

/-- A structured source and destination. -/
example : Encodes (RegisterSessionData.obj ⟨1, 2⟩) [1, 0, 2, 0] ∧ (RegisterSessionData.obj ⟨1, 2⟩).asBuffer = none ∧
    SequencedAddressItem.cls.assignBuffer = none := ⟨RegisterSessionData.encodes ⟨1, 2⟩, rfl, rfl⟩

/-! ### C104 -/

/-- C104. After a reply has been parsed, the service code and the general status are those of the reply, and the pointers to
additional status and data are null exactly if the reply has none, and otherwise lead to their bytes. -/
theorem c104_accessors (payload : Bytes) (service status : UInt8) (additional data : Bytes)
    (h : RRReply payload service status additional data) (n : Nat) (d : RRDataResponse) :
    ∃ r, parsed RRDataResponse.cls payload n d = (.ok (), r) ∧
      r.getServiceCode = service ∧ r.getGeneralStatus = status ∧
      (r.getAdditionalStatus = none ↔ additional = []) ∧ (r.getResponseData = none ↔ data = []) ∧
      (∀ o, r.getAdditionalStatus = some o → Encodes o additional) ∧
      (∀ o, r.getResponseData = some o → Encodes o data) := by
  obtain ⟨base, e⟩ := RRDataResponse.parse_reply h n d
  have enc : ∀ (bs : Bytes) o, rawData bs = some o → Encodes o bs := by
    intro bs o ho
    rw [rawData] at ho
    split at ho
    · cases ho
    · cases ho; exact SerializableBuffer.encodes ⟨bs⟩
  have null : ∀ bs, rawData bs = none ↔ bs = [] := by
    intro bs
    rw [rawData]
    split <;> simp_all
  exact ⟨_, e, rfl, rfl, null _, null _, enc _, enc _⟩

/-- C104. Before anything has been parsed, a response has service code and general status 0 and null pointers, whatever is
asked of it; so a general status of 0 alone does not tell that a reply has arrived. -/
theorem c104_fresh : RRDataResponse.new.getServiceCode = 0 ∧ RRDataResponse.new.getGeneralStatus = 0 ∧
    RRDataResponse.new.getAdditionalStatus = none ∧ RRDataResponse.new.getResponseData = none ∧
    RRDataResponse.new.base.interfaceHandle = 0 ∧ RRDataResponse.new.base.timeout = 0 := ⟨rfl, rfl, rfl, rfl, rfl, rfl⟩

/-- C104. `getAdditionalStatusAs` and `getResponseDataAs` read exactly the additional status and exactly the data: a structure
is parsed from these bytes, a raw buffer becomes these bytes. -/
theorem c104_as (payload : Bytes) (service status : UInt8) (additional data : Bytes)
    (h : RRReply payload service status additional data) (n : Nat) (d : RRDataResponse) :
    ∃ r, parsed RRDataResponse.cls payload n d = (.ok (), r) ∧
      (additional ≠ [] →
        (∀ {δ : Type} (c : Class δ) (x : δ), c.assignBuffer = none →
          r.getAdditionalStatusAs c x = parsed c additional additional.length x) ∧
        (∀ b, r.getAdditionalStatusAs SerializableBuffer.cls b = (.ok (), ⟨additional⟩))) ∧
      (data ≠ [] →
        (∀ {δ : Type} (c : Class δ) (x : δ), c.assignBuffer = none →
          r.getResponseDataAs c x = parsed c data data.length x) ∧
        (∀ b, r.getResponseDataAs SerializableBuffer.cls b = (.ok (), ⟨data⟩))) := by
  obtain ⟨base, e⟩ := RRDataResponse.parse_reply h n d
  refine ⟨_, e, fun ne => ⟨fun c x hc => ?_, fun b => ?_⟩, fun ne => ⟨fun c x hc => ?_, fun b => ?_⟩⟩
  · simp only [RRDataResponse.getAdditionalStatusAs, rawData_of_ne ne]
    exact (c65_copy c x).1 additional hc
  · simp only [RRDataResponse.getAdditionalStatusAs, rawData_of_ne ne]
    rfl
  · simp only [RRDataResponse.getResponseDataAs, rawData_of_ne ne]
    exact (c65_copy c x).1 data hc
  · simp only [RRDataResponse.getResponseDataAs, rawData_of_ne ne]
    rfl

/-- A reply with one word of additional status and three bytes of data. -/
example : RRReply (rrData 0 0 (mrReply 0x8E 0 1 1 [7, 8] [1, 2, 3])) 0x8E 1 [7, 8] [1, 2, 3] :=
  ⟨0, 1, rfl, 0, 0, [], [], ⟨by decide, by decide⟩, by decide⟩

/-! ### C106 -/

theorem readBuffer_exact {n : Nat} {bs : Bytes} (h : bs.length = n) (tail : Bytes) (c : Nat) :
    BufferReader.readBuffer n ⟨bs ++ tail, c⟩ = (.ok bs, ⟨tail, c + bs.length⟩) := by
  subst h
  have : ¬ bs.length + tail.length < bs.length := by omega
  simp [BufferReader.readBuffer, this]

theorem streamRead_exact {bs old : Bytes} (h : bs.length = old.length) (before tail : Bytes) (junk : UInt8) :
    StreamReader.readInto old ⟨before ++ (bs ++ tail), before.length, true, junk⟩ =
      (.ok bs, ⟨before ++ (bs ++ tail), before.length + bs.length, true, junk⟩) := by
  have : ¬ bs.length + tail.length < bs.length := by omega
  simp [StreamReader.readInto, ← h, this]

/-- C106 for `deserialize(reader)` (partial: not streams that end early). A raw buffer of a given size takes as many bytes
from the reader, in order, and leaves the rest unread. A buffer reader without enough bytes throws `length_error`, and the
raw buffer keeps its bytes. Missing: streams that end early, for which it is false. -/
theorem c106_fill_partial (b : SerializableBuffer) (c : Nat) :
    (∀ bs tail : Bytes, bs.length = b.data.length →
      SerializableBuffer.deserialize (b, .buffer ⟨bs ++ tail, c⟩) = (.ok (), (⟨bs⟩, .buffer ⟨tail, c + bs.length⟩)) ∧
      ∀ (before : Bytes) (junk : UInt8), SerializableBuffer.deserialize
          (b, .stream ⟨before ++ (bs ++ tail), before.length, true, junk⟩) =
        (.ok (), (⟨bs⟩, .stream ⟨before ++ (bs ++ tail), before.length + bs.length, true, junk⟩))) ∧
    (∀ bs : Bytes, bs.length < b.data.length →
      ∃ what, SerializableBuffer.deserialize (b, .buffer ⟨bs, c⟩) = (.throw (lengthError what), (b, .buffer ⟨bs, c⟩))) := by
  refine ⟨fun bs tail h => ⟨?_, fun before junk => ?_⟩, fun bs h => ?_⟩
  · simp [SerializableBuffer.deserialize, Prog.bind_def, Prog.andThen, getObj, onReader, Prog.zoom, Reader.readInto,
      readBuffer_exact h, modifyObj]
  · simp only [SerializableBuffer.deserialize, Prog.bind_def, Prog.andThen, getObj, onReader, Prog.zoom, Reader.readInto,
      streamRead_exact h, modifyObj]
  · refine ⟨"Buffer too small to deserialize value", ?_⟩
    simp [SerializableBuffer.deserialize, Prog.bind_def, Prog.andThen, getObj, onReader, Prog.zoom, Reader.readInto,
      BufferReader.readBuffer, h]

/-- C106 for `deserialize(reader, n)` (partial: not streams that end early). Whatever its size before, the raw buffer
becomes the next `n` bytes, in order. A buffer reader without enough bytes throws `length_error`, and the raw buffer keeps
its bytes, if they are not in memory of its own (those are freed: C66). Missing: streams that end early, for which it is
false, and memory of its own. -/
theorem c106_fill_sized_partial (b : SerializableBuffer) (c : Nat) :
    (∀ bs tail : Bytes,
      SerializableBuffer.deserializeLen bs.length (b, .buffer ⟨bs ++ tail, c⟩) =
        (.ok (), (⟨bs⟩, .buffer ⟨tail, c + bs.length⟩)) ∧
      ∀ (before : Bytes) (junk : UInt8), SerializableBuffer.deserializeLen bs.length
          (b, .stream ⟨before ++ (bs ++ tail), before.length, true, junk⟩) =
        (.ok (), (⟨bs⟩, .stream ⟨before ++ (bs ++ tail), before.length + bs.length, true, junk⟩))) ∧
    (∀ (bs : Bytes) (n : Nat), bs.length < n →
      ∃ what, SerializableBuffer.deserializeLen n (b, .buffer ⟨bs, c⟩) = (.throw (lengthError what), (b, .buffer ⟨bs, c⟩))) := by
  refine ⟨fun bs tail => ⟨?_, fun before junk => ?_⟩, fun bs n h => ?_⟩
  · simp [SerializableBuffer.deserializeLen, readBuffer_exact rfl]
  · have ht : (if bs.length ≠ b.data.length then List.replicate bs.length junk else b.data).length = bs.length := by
      split <;> simp_all
    simp only [SerializableBuffer.deserializeLen]
    generalize (if bs.length ≠ b.data.length then List.replicate bs.length junk else b.data) = target at ht
    rw [streamRead_exact ht.symm]
  · exact ⟨"Buffer too small to deserialize value", by simp [SerializableBuffer.deserializeLen, BufferReader.readBuffer, h]⟩

/-- C106 is false for streams that end early: nothing is thrown. The raw buffer gets the bytes that are there; the others are
the old ones if the size is the same, and the contents of fresh memory if it is not. -/
theorem c106_violated (b : SerializableBuffer) (before bs : Bytes) (n : Nat) (junk : UInt8) (h : bs.length < n) :
    ∃ rest, rest.length = n - bs.length ∧
      SerializableBuffer.deserializeLen n (b, .stream ⟨before ++ bs, before.length, true, junk⟩) =
        (.ok (), (⟨bs ++ rest⟩, .stream ⟨before ++ bs, (before ++ bs).length, false, junk⟩)) ∧
      (b.data.length = n → rest = b.data.drop bs.length) ∧
      (b.data.length ≠ n → rest = List.replicate (n - bs.length) junk) := by
  by_cases hn : b.data.length = n
  · refine ⟨b.data.drop bs.length, by simp [hn], ?_, fun _ => rfl, fun h => absurd hn h⟩
    simp [SerializableBuffer.deserializeLen, StreamReader.readInto, hn, h]
  · refine ⟨List.replicate (n - bs.length) junk, by simp, ?_, fun h => absurd h hn, fun _ => rfl⟩
    have hn' : ¬ n = b.data.length := fun h => hn h.symm
    simp [SerializableBuffer.deserializeLen, StreamReader.readInto, hn', h]

/-- Two of three bytes. -/
example : SerializableBuffer.deserializeLen 3 (⟨[7, 8, 9]⟩, .stream ⟨[1, 2], 0, true, 0xCC⟩) =
      (.ok (), (⟨[1, 2, 9]⟩, .stream ⟨[1, 2], 2, false, 0xCC⟩)) ∧
    SerializableBuffer.deserializeLen 3 (⟨[7]⟩, .stream ⟨[1, 2], 0, true, 0xCC⟩) =
      (.ok (), (⟨[1, 2, 0xCC]⟩, .stream ⟨[1, 2], 2, false, 0xCC⟩)) := by decide

end Eip
