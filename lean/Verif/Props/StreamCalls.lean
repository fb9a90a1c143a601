import Verif.Lemmas.Props
import Verif.Lemmas.Memory
import Verif.Props.Parsing
/-
C93, and additions to C66, C68 and C70: streams as readers and writers, call by call.
-/
namespace Eip
open Spec

/-! ### C93 -/

/-- One call on the library's stream reader: the target's new bytes. -/
def runStreamCall (c : StreamCall) : Prog StreamReader Bytes :=
  match c with
  | .read old => StreamReader.readInto old
  | .skip n => do
    StreamReader.skip n
    pure []

/-- A sequence of calls. -/
def runStreamCalls : List StreamCall → StreamReader → List (Res Bytes) × StreamReader
  | [], r => ([], r)
  | c :: cs, r =>
    match runStreamCall c r with
    | (x, r') =>
      match runStreamCalls cs r' with
      | (xs, r'') => (x :: xs, r'')

theorem runStreamCalls_append (a b : List StreamCall) (r : StreamReader) :
    runStreamCalls (a ++ b) r = ((runStreamCalls a r).1 ++ (runStreamCalls b (runStreamCalls a r).2).1,
      (runStreamCalls b (runStreamCalls a r).2).2) := by
  induction a generalizing r with
  | nil => rfl
  | cons c cs ih => simp only [List.cons_append, runStreamCalls, ih]

theorem runStreamCall_fits (c : StreamCall) (data : Bytes) (pos : Nat) (junk : UInt8)
    (h : pos + c.size ≤ data.length) :
    ∃ bs, runStreamCall c ⟨data, pos, true, junk⟩ = (.ok bs, ⟨data, pos + c.size, true, junk⟩) ∧
      c.onBuffer.expected data pos = some bs ∧ c.onBuffer.advance data pos = pos + c.size := by
  cases c with
  | read old =>
    have h' : pos + old.length ≤ data.length := h
    refine ⟨(data.drop pos).take old.length, ?_, ?_, ?_⟩
    · simp only [runStreamCall, StreamReader.readInto, Bool.true_eq_false, if_false, StreamCall.size]
      rw [if_neg (by simp; omega)]
    · simp only [StreamCall.onBuffer, ReadCall.expected, if_pos h']
    · exact if_pos h'
  | skip n =>
    have h' : pos + n ≤ data.length := h
    refine ⟨[], ?_, ?_, ?_⟩
    · simp [runStreamCall, StreamReader.skip, StreamCall.size, h', Prog.bind_def, Prog.andThen, Prog.pure_apply]
    · simp only [StreamCall.onBuffer, ReadCall.expected, if_pos h']
    · exact if_pos h'

/-- C93. As long as the stream has what is asked for, every call delivers what the same call on a buffer with the same
bytes delivers, and the byte count is the number of bytes asked for. -/
theorem c93_complete (data : Bytes) (junk : UInt8) (calls : List StreamCall) (h : totalSize calls ≤ data.length) :
    ∃ (outs : List Bytes) (r : StreamReader), runStreamCalls calls ⟨data, 0, true, junk⟩ = (outs.map Res.ok, r) ∧
      outs.map some = (expectedReads data 0 (calls.map StreamCall.onBuffer)).1 ∧
      r.getByteCount = totalSize calls ∧ r.good = true ∧ r.data = data := by
  suffices H : ∀ (calls : List StreamCall) (pos : Nat), pos + totalSize calls ≤ data.length →
      ∃ outs : List Bytes, runStreamCalls calls ⟨data, pos, true, junk⟩
          = (outs.map Res.ok, ⟨data, pos + totalSize calls, true, junk⟩) ∧
        outs.map some = (expectedReads data pos (calls.map StreamCall.onBuffer)).1 by
    obtain ⟨outs, e, h1⟩ := H calls 0 (by omega)
    exact ⟨outs, _, e, h1, by simp [StreamReader.getByteCount], rfl, rfl⟩
  intro calls
  induction calls with
  | nil => intro pos _; exact ⟨[], rfl, rfl⟩
  | cons c cs ih =>
    intro pos hp
    have ht : totalSize (c :: cs) = c.size + totalSize cs := by simp [totalSize]
    rw [ht] at hp
    obtain ⟨bs, e, h1, h2⟩ := runStreamCall_fits c data pos junk (by omega)
    obtain ⟨outs, e', h3⟩ := ih (pos + c.size) (by omega)
    refine ⟨bs :: outs, ?_, ?_⟩
    · simp only [runStreamCalls, e, e', List.map_cons, ht]
      rw [Nat.add_assoc]
    · simp only [List.map_cons, expectedReads, h1, h2, h3]

theorem runStreamCall_failed (c : StreamCall) (r : StreamReader) (h : r.good = false) :
    runStreamCall c r = (.ok c.untouched, r) := by
  cases c <;> simp [runStreamCall, StreamReader.readInto, StreamReader.skip, h, StreamCall.untouched, Prog.bind_def,
    Prog.andThen, Prog.pure_apply]

theorem runStreamCalls_failed (cs : List StreamCall) (r : StreamReader) (h : r.good = false) :
    runStreamCalls cs r = (cs.map (fun c => .ok c.untouched), r) := by
  induction cs with
  | nil => rfl
  | cons c cs ih => simp only [runStreamCalls, runStreamCall_failed c r h, ih, List.map_cons]

/-- C93. The first call that asks for too much throws nothing either: a read delivers the bytes that are left and leaves
the rest of the target alone. After it every call has no effect, and the byte count is the largest `size_t` instead of a
number of bytes. -/
theorem c93_exhausted (data : Bytes) (junk : UInt8) (done : List StreamCall) (c : StreamCall) (later : List StreamCall)
    (h1 : totalSize done ≤ data.length) (h2 : data.length < totalSize done + c.size) :
    ∃ (outs : List Bytes) (bs : Bytes) (r : StreamReader), runStreamCalls (done ++ c :: later) ⟨data, 0, true, junk⟩
        = (outs.map Res.ok ++ .ok bs :: later.map (fun c => .ok c.untouched), r) ∧
      outs.map some = (expectedReads data 0 (done.map StreamCall.onBuffer)).1 ∧
      (∀ old, c = .read old → bs = data.drop (totalSize done) ++ old.drop (data.length - totalSize done)) ∧
      r.getByteCount = 18446744073709551615 ∧ r.good = false := by
  obtain ⟨outs, r, e, h3, h4, h5, h6⟩ := c93_complete data junk done h1
  have hr : r.pos = totalSize done := by
    rw [← h4]; unfold StreamReader.getByteCount; rw [if_pos h5]
  have step : ∃ bs r', runStreamCall c r = (.ok bs, r') ∧ r'.good = false ∧
      ∀ old, c = .read old → bs = data.drop (totalSize done) ++ old.drop (data.length - totalSize done) := by
    obtain ⟨d, pos, good, j⟩ := r
    simp only at h5 h6 hr
    subst h5 h6 hr
    cases c with
    | read old =>
      have h2' : d.length < totalSize done + old.length := h2
      simp only [runStreamCall, StreamReader.readInto, Bool.true_eq_false, if_false]
      rw [if_pos (by simp; omega)]
      refine ⟨_, _, rfl, rfl, fun o ho => ?_⟩
      cases ho
      simp
    | skip n =>
      have h2' : d.length < totalSize done + n := h2
      refine ⟨[], { data := d, pos := totalSize done, good := false, junk := j }, ?_, rfl, fun o ho => nomatch ho⟩
      have hn : ¬ (totalSize done + n ≤ d.length) := by omega
      simp [runStreamCall, StreamReader.skip, hn, Prog.bind_def, Prog.andThen, Prog.pure_apply]
  obtain ⟨bs, r', e', hg, hb⟩ := step
  refine ⟨outs, bs, r', ?_, h3, hb, ?_, hg⟩
  · rw [runStreamCalls_append, e]
    simp only [runStreamCalls, e', runStreamCalls_failed later r' hg]
  · unfold StreamReader.getByteCount
    rw [hg, pow64]; rfl

/-- Two reads that fit, one of which only two bytes are left for, and two more calls. -/
example : totalSize [.read [0], .skip 2] ≤ [1, 2, 3, 4, (5 : UInt8)].length ∧
    [1, 2, 3, 4, (5 : UInt8)].length < totalSize [.read [0], .skip 2] + (StreamCall.read [7, 8, 9]).size ∧
    runStreamCalls ([.read [0], .skip 2] ++ .read [7, 8, 9] :: [.skip 0, .read [6]]) ⟨[1, 2, 3, 4, 5], 0, true, 0⟩
      = ([.ok [1], .ok [], .ok [4, 5, 9], .ok [], .ok [6]], ⟨[1, 2, 3, 4, 5], 5, false, 0⟩) := by decide

/-- A sequence of writes to a stream. -/
def runStreamWrites : List Bytes → StreamWriter → List (Res Unit) × StreamWriter
  | [], w => ([], w)
  | c :: cs, w =>
    match StreamWriter.writeBuffer c w with
    | (x, w') =>
      match runStreamWrites cs w' with
      | (xs, w'') => (x :: xs, w'')

/-- C93. A stream writer accepts every write its stream has room for; the stream gets all chunks in order, and the byte
count is its length. -/
theorem c93_writer (w : StreamWriter) (chunks : List Bytes) (room : HasRoom w chunks.flatten) :
    ∃ w', runStreamWrites chunks w = (chunks.map (fun _ => .ok ()), w') ∧ w'.out = w.out ++ chunks.flatten ∧
      w'.getByteCount = w.out.length + chunks.flatten.length := by
  suffices H : ∀ w, runStreamWrites chunks w = (chunks.map (fun _ => .ok ()), appended w chunks.flatten) by
    refine ⟨_, H w, ?_, ?_⟩ <;> rw [room.appended] <;> simp [StreamWriter.getByteCount]
  clear room
  induction chunks with
  | nil => intro w; simp [runStreamWrites, appended_nil]
  | cons c cs ih => intro w; simp [runStreamWrites, StreamWriter.writeBuffer_eq, ih, appended_appended]

example : HasRoom ⟨[9], some 3, true⟩ [[1, 2], [], [3]].flatten ∧
    (runStreamWrites [[1, 2], [], [3]] ⟨[9], some 3, true⟩).2.getByteCount = 4 := ⟨⟨rfl, by simp⟩, by decide⟩

/-! ### C68 -/

/-- C68. Both writers report the number of bytes of the encoding after writing an object to a fresh target. -/
theorem c68_counts (o : Obj) (bs : Bytes) (h : Encodes o bs) (buf : Bytes) (hb : bs.length ≤ buf.length) :
    (o.serialize (.stream .new)).2.getByteCount = bs.length ∧
    (o.serialize (.buffer (BufferWriter.new buf))).2.getByteCount = bs.length := by
  obtain ⟨e1, e2⟩ := c68_writers_agree o bs h .new ⟨rfl, nofun⟩ buf hb
  rw [e1, e2]
  exact ⟨by simp [Writer.getByteCount, StreamWriter.getByteCount, StreamWriter.new], rfl⟩

example : Encodes (RegisterSessionData.new).obj [1, 0, 0, 0] := RegisterSessionData.encodes _

/-! ### C70 -/

/-- C70 is false for message router responses: if the stream ends within the additional status, the parse succeeds with
one byte *more* of response data than the whole response was said to have, all of it unknown memory, because the byte
count of the failed stream is the largest `size_t`. -/
theorem c70_violated_response (m : MessageRouterResponse) (s r st k : UInt8) (cut : Bytes) (junk : UInt8) (n : Nat)
    (hcut : cut.length < 2 * k.toNat) (hn : n + 1 < 2147483648) :
    ∃ sr, MessageRouterResponse.deserializeSized n (m, .stream ⟨[s, r, st, k] ++ cut, 0, true, junk⟩) =
      (.ok (), (⟨s, st, rawData (cut ++ List.replicate (2 * k.toNat - cut.length) junk),
        rawData (List.replicate (n + 1) junk)⟩, .stream sr)) := by
  have hk := k.toNat_lt
  have e1 : sizeToInt (2 * k.toNat) = ((2 * k.toNat : Nat) : Int) := sizeToInt_small (by omega)
  let front : Prog (MessageRouterResponse × Reader) UInt8 := do
    readMember .u8 (·.service) (fun v r => { r with service := v })
    readMember .u8 (·.generalStatus) (fun v r => { r with generalStatus := v })
    readMember .u8 (·.generalStatus) (fun v r => { r with generalStatus := v })
    readLocal8
  let rest : UInt8 → Prog (MessageRouterResponse × Reader) Unit := fun x => do
    let a ← MessageRouterResponse.readData (sizeToInt (2 * x.toNat))
    modifyObj (fun r => { r with additionalStatus := a })
    let count ← (fun s => (.ok s.2.getByteCount, s))
    let d ← MessageRouterResponse.readData (sizeToInt (sizeSub n count))
    modifyObj (fun r => { r with responseData := d })
  have split : MessageRouterResponse.deserializeSized n = front >>= rest := by
    simp only [front, rest, MessageRouterResponse.deserializeSized, Prog.bind_assoc]
  have hf : ParsesAt 0 front m [s, r, st, k] k ⟨s, st, m.additionalStatus, m.responseData⟩ := by
    refine ParsesAt.congr_bytes (ParsesAt.bind (ParsesAt.member_enc Codec.u8_lawful _ _ _ _ s)
      (ParsesAt.bind (ParsesAt.member_enc Codec.u8_lawful _ _ _ _ r)
      (ParsesAt.bind (ParsesAt.member_enc Codec.u8_lawful _ _ _ _ st)
      (ParsesAt.local8 _ _ k)))) ?_
    simp [Codec.u8, le8_eq]
  have ef := hf.stream [] cut junk rfl
  have hdata : ∀ (good : Bool) (data : Bytes) (pos len : Nat) (d : MessageRouterResponse), 0 < len →
      (good = true → (data.drop pos).length < len) →
      ∃ sr, sr.good = false ∧ sr.junk = junk ∧
        (MessageRouterResponse.readData (len : Int) : Prog (MessageRouterResponse × Reader) _)
          (d, .stream ⟨data, pos, good, junk⟩) =
        (.ok (rawData ((if good then data.drop pos else []) ++
          List.replicate (len - (if good then data.drop pos else []).length) junk)), (d, .stream sr)) := by
    intro good data pos len d hl hg
    have hne : ∀ bs : Bytes, rawData (bs ++ List.replicate (len - bs.length) junk)
        = some (SerializableBuffer.obj ⟨bs ++ List.replicate (len - bs.length) junk⟩) := by
      intro bs
      refine rawData_of_ne fun e => ?_
      have := congrArg List.length e
      simp only [List.length_append, List.length_replicate, List.length_nil] at this
      omega
    have e2 : len ≠ SerializableBuffer.empty.data.length := by
      simp only [SerializableBuffer.empty, List.length_nil]; omega
    rw [hne]
    unfold MessageRouterResponse.readData
    rw [if_pos (by omega)]
    cases good with
    | false =>
      refine ⟨⟨data, pos, false, junk⟩, rfl, rfl, ?_⟩
      have hr : (readNewBuffer (len : Int).toNat : Prog (MessageRouterResponse × Reader) _)
          (d, .stream ⟨data, pos, false, junk⟩) =
          (.ok ⟨List.replicate len junk⟩, (d, .stream ⟨data, pos, false, junk⟩)) := by
        simp only [Int.toNat_natCast, readNewBuffer, parseFresh, SerializableBuffer.deserializeLen, if_pos e2,
          StreamReader.readInto, if_true]
      rw [Prog.bind_ok hr]
      simp [Prog.pure_apply]
    | true =>
      refine ⟨⟨data, data.length, false, junk⟩, rfl, rfl, ?_⟩
      have hr : (readNewBuffer (len : Int).toNat : Prog (MessageRouterResponse × Reader) _)
          (d, .stream ⟨data, pos, true, junk⟩) =
          (.ok ⟨data.drop pos ++ List.replicate (len - (data.drop pos).length) junk⟩,
            (d, .stream ⟨data, data.length, false, junk⟩)) := by
        simp only [Int.toNat_natCast, readNewBuffer, parseFresh, SerializableBuffer.deserializeLen, if_pos e2,
          StreamReader.readInto, List.length_replicate, if_pos (hg rfl), Bool.true_eq_false, if_false,
          List.drop_replicate]
      rw [Prog.bind_ok hr]
      simp [Prog.pure_apply]
  obtain ⟨sr1, hg1, hj1, ea⟩ := hdata true ([s, r, st, k] ++ cut) 4 (2 * k.toNat)
    ⟨s, st, m.additionalStatus, m.responseData⟩ (by omega) (fun _ => by simpa using hcut)
  obtain ⟨d1, p1, g1, j1⟩ := sr1
  simp only at hg1 hj1
  subst hg1 hj1
  obtain ⟨sr2, _, _, ed⟩ := hdata false d1 p1 (n + 1)
    ⟨s, st, rawData (cut ++ List.replicate (2 * k.toNat - cut.length) j1), m.responseData⟩ (by omega)
    (fun h => nomatch h)
  refine ⟨sr2, ?_⟩
  rw [split]
  have ef' : front (m, .stream ⟨[s, r, st, k] ++ cut, 0, true, j1⟩) = (.ok k,
      (⟨s, st, m.additionalStatus, m.responseData⟩, .stream ⟨[s, r, st, k] ++ cut, 4, true, j1⟩)) := ef
  rw [Prog.bind_ok ef']
  simp only [rest]
  rw [e1, Prog.bind_ok ea]
  have hm : ∀ (a : Option Obj) (d : MessageRouterResponse) (rd : Reader),
      (modifyObj (fun r : MessageRouterResponse => { r with additionalStatus := a })) (d, rd)
        = (.ok (), ({ d with additionalStatus := a }, rd)) := fun _ _ _ => rfl
  rw [Prog.bind_ok (hm _ _ _)]
  obtain ⟨top, htop⟩ : ∃ top : Nat, top = 2 ^ 64 - 1 := ⟨_, rfl⟩
  have hc : ∀ (d : MessageRouterResponse) , (fun s => (.ok s.2.getByteCount, s) : Prog (MessageRouterResponse × Reader) Nat)
      (d, .stream ⟨d1, p1, false, j1⟩) = (.ok top, (d, .stream ⟨d1, p1, false, j1⟩)) := by
    intro d; rw [htop]; rfl
  refine (Prog.bind_ok (p := (fun s => (.ok s.2.getByteCount, s) : Prog (MessageRouterResponse × Reader) Nat)) (a := top)
    (hc ⟨s, st, _, m.responseData⟩)).trans ?_
  have e3 : sizeToInt (sizeSub n top) = ((n + 1 : Nat) : Int) := by
    have : sizeSub n top = n + 1 := by
      rw [htop]; unfold sizeSub; rw [pow64]; omega
    rw [this]; exact sizeToInt_small hn
  rw [e3]
  simp only [Bool.false_eq_true, if_false, List.nil_append, List.length_nil, Nat.sub_zero] at ed
  have e4 : (([s, r, st, k] ++ cut).drop 4) = cut := rfl
  simp only [e4, if_true]
  rw [Prog.bind_ok ed]
  rfl

/-- A response that claims one word of additional status of which one byte is there: of ten announced bytes, eleven are
delivered as response data. -/
example : ∃ sr, MessageRouterResponse.deserializeSized 10 (⟨0, 0, none, none⟩, .stream ⟨[0x8E, 0, 1, 1] ++ [5], 0, true, 0xCD⟩)
    = (.ok (), (⟨0x8E, 1, rawData [5, 0xCD], rawData (List.replicate 11 0xCD)⟩, .stream sr)) :=
  c70_violated_response _ 0x8E 0 1 1 [5] 0xCD 10 (by decide) (by decide)

/-- C70 is false for identities: if the stream ends within the product name, the parse succeeds, the missing characters
are those the object had before at their places, or NUL if its name was shorter, and the state is the object's old one. -/
theorem c70_violated_identity (d x : IdentityItemData) (hx : x.productName.length < 256) (before : Bytes) (k : Nat)
    (hk : k < x.productName.length) (junk : UInt8) :
    ∃ sr, IdentityItemData.deserialize
        (d, .stream ⟨before ++ (identity x x.productName).take (33 + k), before.length, true, junk⟩) =
      (.ok (), ({ x with
        productName := x.productName.take k ++
          ((d.productName ++ List.replicate x.productName.length 0).take x.productName.length).drop k
        state := d.state }, .stream sr)) := by
  let front : Prog (IdentityItemData × Reader) UInt8 := do
    readMember .u16 (·.encapProtocolVersion) (fun v d => { d with encapProtocolVersion := v })
    readMember .sockaddr (·.sockaddr) (fun v d => { d with sockaddr := v })
    readMember .u16 (·.vendorId) (fun v d => { d with vendorId := v })
    readMember .u16 (·.deviceType) (fun v d => { d with deviceType := v })
    readMember .u16 (·.productCode) (fun v d => { d with productCode := v })
    readMember .revision (·.revision) (fun v d => { d with revision := v })
    readMember .u16 (·.status) (fun v d => { d with status := v })
    readMember .u32 (·.serialNumber) (fun v d => { d with serialNumber := v })
    readLocal8
  let rest : UInt8 → Prog (IdentityItemData × Reader) Unit := fun n => do
    modifyObj (fun d => { d with productName := IdentityItemData.resize n.toNat d.productName })
    let d ← getObj
    let bs ← onReader (Reader.readInto d.productName)
    modifyObj (fun d => { d with productName := bs })
    readMember .u8 (·.state) (fun v d => { d with state := v })
  have split : IdentityItemData.deserialize = front >>= rest := by
    simp only [front, rest, IdentityItemData.deserialize, Prog.bind_assoc]
  have hn : (UInt8.ofNat x.productName.length).toNat = x.productName.length := by
    rw [UInt8.toNat_ofNat', Nat.mod_eq_of_lt hx]
  obtain ⟨fixed, hfixed⟩ : ∃ fixed : Bytes, identity x x.productName = fixed ++ (x.productName ++ [x.state]) ∧
      fixed.length = 33 := by
    refine ⟨le 2 x.encapProtocolVersion.toNat ++ sockaddr x.sockaddr ++ le 2 x.vendorId.toNat ++
      le 2 x.deviceType.toNat ++ le 2 x.productCode.toNat ++ [x.revision.1, x.revision.2] ++ le 2 x.status.toNat ++
      le 4 x.serialNumber.toNat ++ le 1 x.productName.length, ?_, ?_⟩
    · simp only [identity, List.append_assoc]
    · simp only [sockaddr, List.length_append, le_length, List.length_cons, List.length_nil]
  have hf : ParsesAt before.length front d fixed (UInt8.ofNat x.productName.length)
      { x with productName := d.productName, state := d.state } := by
    refine ParsesAt.congr_bytes (ParsesAt.bind (ParsesAt.member_enc Codec.u16_lawful _ _ _ _ x.encapProtocolVersion)
      (ParsesAt.bind (ParsesAt.member_enc Codec.sockaddr_lawful _ _ _ _ x.sockaddr)
      (ParsesAt.bind (ParsesAt.member_enc Codec.u16_lawful _ _ _ _ x.vendorId)
      (ParsesAt.bind (ParsesAt.member_enc Codec.u16_lawful _ _ _ _ x.deviceType)
      (ParsesAt.bind (ParsesAt.member_enc Codec.u16_lawful _ _ _ _ x.productCode)
      (ParsesAt.bind (ParsesAt.member_enc Codec.revision_lawful _ _ _ _ x.revision)
      (ParsesAt.bind (ParsesAt.member_enc Codec.u16_lawful _ _ _ _ x.status)
      (ParsesAt.bind (ParsesAt.member_enc Codec.u32_lawful _ _ _ _ x.serialNumber)
      (ParsesAt.local8 _ _ (UInt8.ofNat x.productName.length)))))))))) ?_
    apply List.append_cancel_right (bs := x.productName ++ [x.state])
    rw [← hfixed.1]
    simp only [identity, sockaddr_enc, revision_enc, Codec.u16, Codec.u32, le16_eq_le, le32_eq_le, le8_ofNat,
      List.append_assoc]
  have hcut : (identity x x.productName).take (33 + k) = fixed ++ x.productName.take k := by
    rw [hfixed.1, ← hfixed.2, List.take_length_add_append, List.take_append_of_le_length (by omega)]
  rw [hcut]
  have ef := hf.stream before (x.productName.take k) junk rfl
  rw [split, Prog.bind_ok ef]
  simp only [rest, hn]
  have e0 : ∀ (n : Nat) (s : Bytes), IdentityItemData.resize n s = (s ++ List.replicate n 0).take n := by
    intro n s
    rw [IdentityItemData.resize, List.take_append, List.take_replicate, Nat.min_eq_left (by omega)]
  have e1 : (before ++ (fixed ++ x.productName.take k)).drop (before.length + fixed.length) = x.productName.take k := by
    rw [← List.append_assoc, ← List.length_append, List.drop_left]
  have e2 : (x.productName.take k).length = k := by rw [List.length_take]; omega
  have e3 : ((d.productName ++ List.replicate x.productName.length 0).take x.productName.length).length =
      x.productName.length := by simp
  refine ⟨⟨before ++ (fixed ++ x.productName.take k), (before ++ (fixed ++ x.productName.take k)).length, false, junk⟩, ?_⟩
  generalize hs : ((d.productName ++ List.replicate x.productName.length 0).take x.productName.length) = s at *
  have er : (onReader (Reader.readInto s) : Prog (IdentityItemData × Reader) Bytes)
      ({ x with productName := s, state := d.state },
        .stream ⟨before ++ (fixed ++ x.productName.take k), before.length + fixed.length, true, junk⟩) =
      (.ok (x.productName.take k ++ s.drop k), ({ x with productName := s, state := d.state },
        .stream ⟨before ++ (fixed ++ x.productName.take k), (before ++ (fixed ++ x.productName.take k)).length, false,
          junk⟩)) := by
    simp only [onReader, Prog.zoom, Reader.readInto, StreamReader.readInto, e1, e2, e3, if_pos hk, Bool.true_eq_false,
      if_false]
  have em : ∀ (f : IdentityItemData → IdentityItemData) (y : IdentityItemData) (r : Reader),
      modifyObj f (y, r) = (.ok (), (f y, r)) := fun _ _ _ => rfl
  have eg : ∀ (y : IdentityItemData) (r : Reader), (getObj : Prog (IdentityItemData × Reader) _) (y, r) = (.ok y, (y, r)) :=
    fun _ _ => rfl
  rw [Prog.bind_ok (em _ _ _)]
  rw [Prog.bind_ok (eg _ _)]
  simp only [e0, hs]
  rw [Prog.bind_ok er, Prog.bind_ok (em _ _ _)]
  simp only [readMember]
  rw [Prog.bind_ok (eg _ _)]
  have es : (onReader (Reader.readInto (Codec.u8.enc d.state)) : Prog (IdentityItemData × Reader) Bytes)
      ({ x with productName := x.productName.take k ++ s.drop k, state := d.state },
        .stream ⟨before ++ (fixed ++ x.productName.take k), (before ++ (fixed ++ x.productName.take k)).length, false,
          junk⟩) =
      (.ok (Codec.u8.enc d.state), ({ x with productName := x.productName.take k ++ s.drop k, state := d.state },
        .stream ⟨before ++ (fixed ++ x.productName.take k), (before ++ (fixed ++ x.productName.take k)).length, false,
          junk⟩)) := rfl
  rw [Prog.bind_ok es]
  have ed : Codec.u8.dec (Codec.u8.enc d.state) = d.state := Codec.u8_lawful.2 _
  simp only [modifyObj, ed]

/-- A device with a three letter name of which one letter arrives: the name has two NULs. -/
example : ∃ sr, IdentityItemData.deserialize
      (⟨0, ⟨0, 0, 0, (0, 0)⟩, 0, 0, 0, (0, 0), 0, 0, [], 9⟩,
        .stream ⟨[] ++ (identity ⟨1, ⟨0x200, 0x12AF, 0x0A00A8C0, (0, 0)⟩, 7, 8, 9, (1, 2), 3, 4, [65, 66, 67], 5⟩
          [65, 66, 67]).take 34, 0, true, 0xCD⟩) =
    (.ok (), (⟨1, ⟨0x200, 0x12AF, 0x0A00A8C0, (0, 0)⟩, 7, 8, 9, (1, 2), 3, 4, [65, 0, 0], 9⟩, .stream sr)) :=
  c70_violated_identity _ ⟨1, ⟨0x200, 0x12AF, 0x0A00A8C0, (0, 0)⟩, 7, 8, 9, (1, 2), 3, 4, [65, 66, 67], 5⟩
    (by decide) [] 1 (by decide) 0xCD

/-! ### C66 -/

theorem load_ok (h : Heap) (r : Ref) : (∃ x, (Heap.load r h).1 = .ok x) ↔
    r.len = 0 ∨ ∃ old, h.blocks[r.block]? = some (some old) ∧ r.off + r.len ≤ old.length := by
  have e : (∃ x, (Heap.load r h).1 = .ok x) ↔ (h.contents r).isSome = true := by
    unfold Heap.load
    cases h.contents r <;> simp
  rw [e, Heap.contents_isSome]
  constructor
  · rintro (h0 | ⟨n, ⟨old, hb, rfl⟩, hn⟩)
    · exact .inl h0
    · exact .inr ⟨old, hb, hn⟩
  · rintro (h0 | ⟨old, hb, hn⟩)
    · exact .inl h0
    · exact .inr ⟨_, ⟨old, hb, rfl⟩, hn⟩

theorem load_ok' {h : Heap} {r : Ref} {x : Option (Option Bytes)} (e : h.blocks[r.block]? = x) :
    (∃ x, (Heap.load r h).1 = .ok x) ↔ r.len = 0 ∨ ∃ old, x = some (some old) ∧ r.off + r.len ≤ old.length := by
  rw [← e]; exact load_ok h r

/-- C66. Memory accesses of the model are defined exactly when every byte lies in a block that is still allocated; a write
changes those bytes and nothing else. -/
theorem c66_accesses (h : Heap) (r : Ref) (bs : Bytes) :
    ((Heap.store r bs h).1 = .ok () ↔
      bs = [] ∨ ∃ old, h.blocks[r.block]? = some (some old) ∧ r.off + bs.length ≤ old.length) ∧
    ((∃ x, (Heap.load r h).1 = .ok x) ↔
      r.len = 0 ∨ ∃ old, h.blocks[r.block]? = some (some old) ∧ r.off + r.len ≤ old.length) ∧
    (∀ u h', Heap.store r bs h = (.ub u, h') → u = .danglingAccess ∧ h' = h) ∧
    (∀ h', Heap.store r bs h = (.ok (), h') → ∀ b i v, (b ≠ r.block ∨ i < r.off ∨ r.off + bs.length ≤ i) →
      ((∃ old, h.blocks[b]? = some (some old) ∧ old[i]? = some v) ↔
        ∃ old, h'.blocks[b]? = some (some old) ∧ old[i]? = some v)) ∧
    (∀ h', Heap.store r bs h = (.ok (), h') → ∀ i v, bs[i]? = some v →
      ∃ old, h'.blocks[r.block]? = some (some old) ∧ old[r.off + i]? = some v) := by
  by_cases hb : bs = []
  · subst hb
    have e : Heap.store r [] h = (.ok (), h) := rfl
    refine ⟨⟨fun _ => .inl rfl, fun _ => rfl⟩, load_ok h r, fun u h' e' => ?_, fun h' e' => ?_, fun h' e' i v hi => ?_⟩
    · rw [e] at e'; cases e'
    · rw [e] at e'; cases e'; exact fun b i v _ => Iff.rfl
    · simp at hi
  · cases hblk : h.blocks[r.block]? with
    | none =>
      have e : Heap.store r bs h = (.ub .danglingAccess, h) := by simp [Heap.store, hb, hblk]
      rw [e]
      refine ⟨⟨fun x => (nomatch x), fun x => ?_⟩, load_ok' hblk, fun u h' e' => ?_, fun h' e' => (nomatch e'), fun h' e' => (nomatch e')⟩
      · rcases x with x | ⟨_, x, _⟩
        · exact absurd x hb
        · cases x
      · cases e'; exact ⟨rfl, rfl⟩
    | some blk =>
      cases blk with
      | none =>
        have e : Heap.store r bs h = (.ub .danglingAccess, h) := by simp [Heap.store, hb, hblk]
        rw [e]
        refine ⟨⟨fun x => (nomatch x), fun x => ?_⟩, load_ok' hblk, fun u h' e' => ?_, fun h' e' => (nomatch e'),
          fun h' e' => (nomatch e')⟩
        · rcases x with x | ⟨_, x, _⟩
          · exact absurd x hb
          · cases x
        · cases e'; exact ⟨rfl, rfl⟩
      | some old =>
        by_cases hl : r.off + bs.length ≤ old.length
        · have hlt := (List.getElem?_eq_some_iff.1 hblk).1
          have e : Heap.store r bs h = (.ok (),
              ⟨h.blocks.set r.block (some (old.take r.off ++ bs ++ old.drop (r.off + bs.length)))⟩) := by
            simp [Heap.store, hb, hblk, hl]
          rw [e]
          refine ⟨⟨fun _ => .inr ⟨old, rfl, hl⟩, fun _ => rfl⟩, load_ok' hblk, fun u h' e' => (nomatch e'),
            fun h' e' => ?_, fun h' e' i v hi => ?_⟩
          · cases e'
            intro b i v hd
            by_cases hbk : b = r.block
            · subst hbk
              have hi : i < r.off ∨ r.off + bs.length ≤ i := by
                rcases hd with hd | hd
                · exact absurd rfl hd
                · exact hd
              have same : (old.take r.off ++ bs ++ old.drop (r.off + bs.length))[i]? = old[i]? := by
                have hto : (old.take r.off).length = r.off := by simp; omega
                rcases hi with hi | hi
                · rw [List.append_assoc, List.getElem?_append_left (by omega), List.getElem?_take_of_lt hi]
                · rw [List.getElem?_append_right (by rw [List.length_append]; omega), List.getElem?_drop]
                  congr 1
                  rw [List.length_append]; omega
              simp only [hblk, List.getElem?_set_self hlt, Option.some.injEq, exists_eq_left', same]
            · simp only [List.getElem?_set_ne (Ne.symm hbk)]
          · cases e'
            have hil := (List.getElem?_eq_some_iff.1 hi).1
            refine ⟨_, List.getElem?_set_self hlt, ?_⟩
            have hto : (old.take r.off).length = r.off := by simp; omega
            rw [List.getElem?_append_left (by rw [List.length_append]; omega), List.getElem?_append_right (by omega), hto,
              Nat.add_sub_cancel_left, hi]
        · have e : Heap.store r bs h = (.ub .danglingAccess, h) := by simp [Heap.store, hb, hblk, hl]
          rw [e]
          refine ⟨⟨fun x => (nomatch x), fun x => ?_⟩, load_ok' hblk, fun u h' e' => ?_, fun h' e' => (nomatch e'),
            fun h' e' => (nomatch e')⟩
          · rcases x with x | ⟨_, x, hx⟩
            · exact absurd x hb
            · cases x; exact absurd hx hl
          · cases e'; exact ⟨rfl, rfl⟩

/-- A write of two bytes at offset 1 of the second of two blocks; the same write at offset 2 does not fit. -/
example : Heap.store ⟨1, 1, 2⟩ [8, 9] ⟨[some [0, 0], some [1, 2, 3]]⟩ = (.ok (), ⟨[some [0, 0], some [1, 8, 9]]⟩) ∧
    (Heap.store ⟨1, 2, 2⟩ [8, 9] ⟨[some [0, 0], some [1, 2, 3]]⟩).1 = .ub .danglingAccess := by decide

end Eip
