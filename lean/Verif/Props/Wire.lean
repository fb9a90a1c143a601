import Verif.Lemmas.Props
/-
C04 - C15, C74: what is written, reported lengths and round trips.
-/
namespace Eip
open Spec

/-! ### C04 -/

/-- C04. Every serializable the library sends writes exactly the bytes of its wire format, and reports their
number. -/
theorem c04_reported_length_is_written_length :
    (∀ h : EncapHeader, Encodes h.obj (Spec.header h)) ∧
    (∀ (p : EncapPacket) (bs : Bytes), EncodesOpt p.payload bs → Encodes p.obj (Spec.header p.header ++ bs)) ∧
    (∀ d : RegisterSessionData, Encodes d.obj (register d.protocolVersion d.options)) ∧
    (∀ p : Path, ∃ bs, Writes p.serialize bs ∧ p.getLength = bs.length) ∧
    (∀ (r : MessageRouterRequest) (bs : Bytes), EncodesOpt r.data bs →
      ∃ all, Encodes r.obj (all ++ bs)) ∧
    (∀ (r : RRDataRequest) (bs : Bytes), EncodesOpt r.mr.data bs → ∃ all, Encodes r.obj (all ++ bs)) ∧
    (∀ r : ForwardOpenRequest, ∃ bs, Encodes r.obj bs) ∧
    (∀ c : Connection, ∃ bs, Encodes c.createForwardCloseRequest.obj bs) ∧
    (∀ d : SequencedAddressItem, Encodes d.obj (seqAddress d.connectionId d.sequenceNum)) ∧
    (∀ (τ : Type) (cd : Codec τ) (v : τ), Encodes (SerializablePrimitive.obj cd ⟨v⟩) (cd.enc v)) := by
  refine ⟨EncapHeader.encodes, fun p bs h => p.writes h, RegisterSessionData.encodes,
    fun p => ⟨_, p.writes, p.getLength_eq⟩,
    fun r bs h => ⟨[r.service] ++ pathBytes r.path, MessageRouterRequest.encodes r h⟩,
    fun r bs h => ⟨le 4 r.base.interfaceHandle.toNat ++ le 2 r.base.timeout.toNat ++ le 2 2 ++ le 2 0 ++ le 2 0 ++
      le 2 0xB2 ++ le 2 ([r.mr.service] ++ pathBytes r.mr.path ++ bs).length ++ [r.mr.service] ++
      pathBytes r.mr.path, ?_⟩,
    fun r => ⟨_, ForwardOpenRequest.encodes r⟩, fun c => ⟨_, ForwardCloseRequest.encodes _ rfl⟩,
    SequencedAddressItem.encodes, fun τ cd v => SerializablePrimitive.encodes cd v⟩
  · have := RRDataRequest.encodes r h
    rw [rrData_eq] at this
    simpa only [mrRequest, List.append_assoc] using this

/-- C04. So the buffer the library allocates for an object is filled exactly: sending neither throws nor pads. -/
theorem c04_exact_buffer (o : Obj) (bs : Bytes) (h : Encodes o bs) :
    o.serialize (.buffer (BufferWriter.new (List.replicate o.getLength 0))) = (.ok (), .buffer ⟨bs, [], bs.length⟩) := by
  have := h.writes.fits (BufferWriter.new (List.replicate o.getLength 0)) (by simp [BufferWriter.new, h.length])
  rw [this]
  simp [BufferWriter.new, h.length]

/-- A request to read attribute 1 of class 1, instance 1. -/
example : EncodesOpt (RRDataRequest.new 0x0E (Path.mk3 1 1 1) none).mr.data [] ∧
    (RRDataRequest.new 0x0E (Path.mk3 1 1 1) none).getLength = 24 := ⟨rfl, rfl⟩

/-! ### C05 -/

/-- C05 in full: items and packets of any size. -/
def ReportsTrueLengths : Prop :=
  ∀ (p : CPFPacket) (l : List (UInt16 × Bytes)), ItemsAre p.items l → Encodes p.obj (cpf l)

/-- C05 is false: any packet with one item of exactly 65536 bytes reports 6 bytes and cannot be sent from a buffer
of that size. -/
theorem c05_violated : ¬ ReportsTrueLengths ∧
    ∀ (t : UInt16) (bs : Bytes), bs.length = 65536 →
      let p : CPFPacket := ⟨[⟨t, some (SerializableBuffer.obj ⟨bs⟩)⟩]⟩
      p.getLength = 6 ∧ Writes p.serialize (cpf [(t, bs)]) ∧ (cpf [(t, bs)]).length = 65542 ∧
      ∃ what w', p.serialize (.buffer (BufferWriter.new (List.replicate p.getLength 0)))
        = (.throw (lengthError what), .buffer w') := by
  have key : ∀ (t : UInt16) (bs : Bytes), bs.length = 65536 →
      let p : CPFPacket := ⟨[⟨t, some (SerializableBuffer.obj ⟨bs⟩)⟩]⟩
      p.getLength = 6 ∧ Writes p.serialize (cpf [(t, bs)]) ∧ (cpf [(t, bs)]).length = 65542 ∧
      ∃ what w', p.serialize (.buffer (BufferWriter.new (List.replicate p.getLength 0)))
        = (.throw (lengthError what), .buffer w') := by
    intro t bs h p
    have hi : ItemsEncode p.items [bs] := .cons (SerializableBuffer.encodes ⟨bs⟩) .nil
    have h1 : p.getLength = 6 := by
      rw [CPFPacket.getLength_eq hi]
      simp [h]
    have h2 : Writes p.serialize (cpf [(t, bs)]) := CPFPacket.writes hi
    have h3 : (cpf [(t, bs)]).length = 65542 := by
      rw [cpf_length]; simp [h]
    refine ⟨h1, h2, h3, ?_⟩
    obtain ⟨what, w', k, e, _⟩ := h2.full (BufferWriter.new (List.replicate p.getLength 0)) (by
      rw [h3, h1]; simp [BufferWriter.new])
    exact ⟨what, w', e⟩
  refine ⟨fun hall => ?_, key⟩
  obtain ⟨bs, hb⟩ : ∃ bs : Bytes, bs.length = 65536 := ⟨List.replicate 65536 0, List.length_replicate⟩
  obtain ⟨h1, _, h3, _⟩ := key 0 bs hb
  have := (hall ⟨[⟨0, some (SerializableBuffer.obj ⟨bs⟩)⟩]⟩ [(0, bs)]
    (.cons ⟨rfl, SerializableBuffer.encodes ⟨bs⟩⟩ .nil)).length
  rw [h3] at this
  simp only [CPFPacket.obj] at this
  omega

/-- C05 (partial: every item under 65536 bytes). Missing: larger items, for which it is false. -/
theorem c05_true_length_partial (p : CPFPacket) (l : List (UInt16 × Bytes)) (h : ItemsAre p.items l)
    (small : ∀ i ∈ l, i.2.length < 65536) : Encodes p.obj (cpf l) := by
  obtain ⟨h1, h2⟩ := ItemsAre.encode h
  have := CPFPacket.encodes h1 (by
    intro bs hb
    obtain ⟨i, hi, rfl⟩ := List.mem_map.mp hb
    exact small i hi)
  rwa [h2] at this

/-- C05 (partial). The same for one item. -/
theorem c05_item_true_length_partial (i : CPFItem) (bs : Bytes) (h : EncodesOpt i.data bs) (small : bs.length < 65536) :
    Encodes i.obj (item i.itemType bs) := CPFItem.encodes i h small

/-- What is written never depends on the size; only the announced length does. -/
theorem c05_exact (i : CPFItem) (bs : Bytes) (h : EncodesOpt i.data bs) :
    Writes i.serialize (item i.itemType bs) ∧ i.getLength = 4 + bs.length % 65536 :=
  ⟨CPFItem.writes i h, CPFItem.getLength_eq i h⟩

/-- Two items, as in an IO packet. -/
example : ItemsAre [⟨0x8002, some (SequencedAddressItem.obj ⟨7, 1⟩)⟩, ⟨0xB1, some (SerializableBuffer.obj ⟨[1, 2, 3]⟩)⟩]
    [(0x8002, seqAddress 7 1), (0xB1, [1, 2, 3])] :=
  .cons ⟨rfl, SequencedAddressItem.encodes _⟩ (.cons ⟨rfl, SerializableBuffer.encodes _⟩ .nil)

/-! ### C06 -/

/-- C06. The 24 bytes of any header parse back to it, whatever the header object held before. -/
theorem c06_header_round_trip (h : EncapHeader) :
    ∃ bs, bs.length = 24 ∧ Writes h.serialize bs ∧ ∀ d, Parses EncapHeader.deserialize d bs () h :=
  ⟨Spec.header h, header_length h, h.writes, fun d => EncapHeader.parses d h⟩

/-- C06. Every 24-byte string is a header. -/
theorem c06_every_string_is_a_header (bs : Bytes) (hl : bs.length = 24) :
    ∃ h : EncapHeader, (∀ d, Parses EncapHeader.deserialize d bs () h) ∧ Writes h.serialize bs := by
  obtain ⟨h, rfl⟩ := exists_header bs hl
  exact ⟨h, fun d => EncapHeader.parses d h, h.writes⟩

/-- The register-session request header of the library's tests. -/
example : Spec.header ⟨0x65, 4, 0, 0, (0, 0), 0⟩ =
    [0x65, 0, 4, 0, 0, 0, 0, 0, 0, 0, 0, 0, 0, 0, 0, 0, 0, 0, 0, 0, 0, 0, 0, 0] := by decide

/-! ### C07 -/

/-- C07. A packet whose length field is its payload's length parses back to the same header and payload bytes. -/
theorem c07_packet_round_trip (p : EncapPacket) (bs : Bytes) (h : EncodesOpt p.payload bs)
    (hl : p.header.length.toNat = bs.length) :
    ∃ wire, Writes p.serialize wire ∧
      ∀ d, Parses EncapPacket.deserialize d wire () ⟨p.header, rawData bs⟩ :=
  ⟨_, (p.writes h).writes, fun d => EncapPacket.parses d p.header hl.symm⟩

/-- C07. A packet constructed with a payload under 65536 bytes: all fields after the round trip. -/
theorem c07_constructed_packet_round_trip (command : UInt16) (handle : UInt32) (o : Option Obj) (bs : Bytes)
    (h : EncodesOpt o bs) (small : bs.length < 65536) :
    Writes (EncapPacket.withPayload command handle o).serialize (request command.toNat handle bs) ∧
    ∀ d, Parses EncapPacket.deserialize d (request command.toNat handle bs) ()
      ⟨⟨command, UInt16.ofNat bs.length, handle, 0, (0, 0), 0⟩, rawData bs⟩ := by
  refine ⟨(EncapPacket.withPayload_encodes command handle h).writes, fun d => ?_⟩
  have := EncapPacket.parses d ⟨command, UInt16.ofNat bs.length, handle, 0, (0, 0), 0⟩ (toNat_ofNat16 small).symm
  intro c
  refine ParsesAt.congr_bytes (this c) ?_
  simp only [Spec.header, request, List.append_assoc, toNat_ofNat16 small]
  rfl

/-- C07. A byte string that parses is reserialized to exactly the bytes consumed, and the payload has exactly as
many bytes as the length field says. -/
theorem c07_parse_then_serialize (d p : EncapPacket) (input : Bytes) (c : Nat) (r : Reader)
    (e : EncapPacket.deserialize (d, .buffer ⟨input, c⟩) = (.ok (), (p, r))) :
    ∃ used tail payload, input = used ++ tail ∧ r = .buffer ⟨tail, c + used.length⟩ ∧ Encodes p.obj used ∧
      p.payload = rawData payload ∧ payload.length = p.header.length.toNat := by
  rcases covers_encap.total (p := EncapPacket.deserialize) (c := c) (d := d) (by
      rintro cs ⟨h, pl, hl, rfl⟩
      exact ⟨(), _, EncapPacket.parses d h hl c⟩) input with
    ⟨cs, tail, x, d1, ⟨h, pl, hl, rfl⟩, e1, hp, e2⟩ | ⟨cs, m, what, d1, r1, _, _, _, e2⟩
  · have e3 := (EncapPacket.parses d h hl c).buffer tail
    rw [← e1, e] at e3
    simp only [Prod.mk.injEq, true_and] at e3
    obtain ⟨rfl, rfl⟩ := e3
    refine ⟨_, tail, pl, e1, rfl, EncapPacket.writes _ ?_, rfl, hl⟩
    simp only [rawData]
    split
    · next h => simp [h, EncodesOpt]
    · exact SerializableBuffer.encodes ⟨pl⟩
  · rw [e] at e2
    simp at e2

/-- A register-session reply with a four byte payload and two more bytes. -/
example : ∃ p r, EncapPacket.deserialize (EncapPacket.new, .buffer ⟨request 0x65 5 [1, 0, 0, 0] ++ [9, 9], 0⟩)
    = (.ok (), (p, r)) ∧ r = .buffer ⟨[9, 9], 28⟩ ∧ p.header.sessionHandle = 5 := by
  have h : EncodesOpt (some (SerializableBuffer.obj ⟨[1, 0, 0, 0]⟩)) [1, 0, 0, 0] := SerializableBuffer.encodes _
  have := ((c07_constructed_packet_round_trip 0x65 5 _ _ h (by decide)).2 EncapPacket.new 0).buffer [9, 9]
  exact ⟨_, _, this, rfl, rfl⟩

/-! ### C08 -/

/-- C08. Items come back in order with the same types and data. -/
theorem c08_cpf_round_trip (p : CPFPacket) (l : List (UInt16 × Bytes)) (h : ItemsAre p.items l) (ok : CpfOk l) :
    Writes p.serialize (cpf l) ∧
    ∀ d, Parses CPFPacket.deserialize d (cpf l) () ⟨l.map (fun i => ⟨i.1, rawData i.2⟩)⟩ := by
  exact ⟨(c05_true_length_partial p l h ok.2).writes, fun d => CPFPacket.parses l ok.1 ok.2 d⟩

/-- C08. A byte string that parses is reserialized to exactly the bytes consumed. -/
theorem c08_parse_then_serialize (d p : CPFPacket) (input : Bytes) (c : Nat) (r : Reader)
    (e : CPFPacket.deserialize (d, .buffer ⟨input, c⟩) = (.ok (), (p, r))) :
    ∃ used tail l, input = used ++ tail ∧ r = .buffer ⟨tail, c + used.length⟩ ∧ Encodes p.obj used ∧
      CpfOk l ∧ used = cpf l ∧ p.items = l.map (fun i => ⟨i.1, rawData i.2⟩) := by
  rcases covers_cpf.total (p := CPFPacket.deserialize) (c := c) (d := d) (by
      rintro cs ⟨l, ok, rfl⟩
      exact ⟨(), _, CPFPacket.parses l ok.1 ok.2 d c⟩) input with
    ⟨cs, tail, x, d1, ⟨l, ok, rfl⟩, e1, hp, e2⟩ | ⟨cs, m, what, d1, r1, _, _, _, e2⟩
  · have e3 := (CPFPacket.parses l ok.1 ok.2 d c).buffer tail
    rw [← e1, e] at e3
    simp only [Prod.mk.injEq, true_and] at e3
    obtain ⟨rfl, rfl⟩ := e3
    refine ⟨_, tail, l, e1, rfl, ?_, ok, rfl, rfl⟩
    refine c05_true_length_partial _ l ?_ ok.2
    have : ∀ l : List (UInt16 × Bytes), ItemsAre (parsedItems l) l := by
      intro l
      induction l with
      | nil => exact .nil
      | cons i l ih =>
        refine .cons ⟨rfl, ?_⟩ ih
        simp only [rawData]
        split
        · next h => simp [h, EncodesOpt]
        · exact SerializableBuffer.encodes ⟨i.2⟩
    exact this l
  · rw [e] at e2
    simp at e2

/-- A packet with an empty null address and four bytes of data. -/
example : CpfOk [(0, []), (0xB2, [1, 2, 3, 4])] ∧
    cpf [(0, []), (0xB2, [1, 2, 3, 4])] = [2, 0, 0, 0, 0, 0, 0xB2, 0, 4, 0, 1, 2, 3, 4] := by
  refine ⟨⟨by decide, by decide⟩, by decide⟩

/-! ### C09 -/

/-- C09. The wire layout of an unconnected request. -/
theorem c09_request_layout (service : UInt8) (p : Path) (pad : Bool) (segs : List Segment) (data : Option Obj)
    (bs : Bytes) (hp : PathIs p pad segs) (hd : EncodesOpt data bs) :
    Encodes (RRDataRequest.new service p data).obj
      (le 4 0 ++ le 2 0 ++ le 2 2 ++ (le 2 0 ++ le 2 0) ++
        (le 2 0xB2 ++ le 2 ([service] ++ path pad segs ++ bs).length ++ ([service] ++ path pad segs ++ bs))) := by
  have := RRDataRequest.encodes (RRDataRequest.new service p data) (bs := bs) hd
  rw [rrData_eq] at this
  simp only [RRDataRequest.new, RRData.new, pathBytes_eq hp, mrRequest, List.append_assoc] at this ⊢
  exact this

/-- C09. The same with any interface handle and timeout in the request, and for plain RR data. -/
theorem c09_any_handle_and_timeout (handle : UInt32) (timeout : UInt16) :
    (∀ (service : UInt8) (p : Path) (pad : Bool) (segs : List Segment) (data : Option Obj) (bs : Bytes),
      PathIs p pad segs → EncodesOpt data bs →
      Encodes (RRDataRequest.obj ⟨⟨handle, timeout⟩, ⟨service, p, data⟩⟩)
        (le 4 handle.toNat ++ le 2 timeout.toNat ++ le 2 2 ++ (le 2 0 ++ le 2 0) ++
          (le 2 0xB2 ++ le 2 ([service] ++ path pad segs ++ bs).length ++ ([service] ++ path pad segs ++ bs)))) ∧
    Encodes (RRData.obj ⟨handle, timeout⟩)
      (le 4 handle.toNat ++ le 2 timeout.toNat ++ le 2 2 ++ (le 2 0 ++ le 2 0) ++ (le 2 0xB2 ++ le 2 0)) := by
  constructor
  · intro service p pad segs data bs hp hd
    have := RRDataRequest.encodes ⟨⟨handle, timeout⟩, ⟨service, p, data⟩⟩ (bs := bs) hd
    rw [rrData_eq] at this
    simp only [pathBytes_eq hp, mrRequest, List.append_assoc] at this ⊢
    exact this
  · have := RRData.encodes ⟨handle, timeout⟩
    rw [rrData_eq] at this
    simpa using this

/-- C09. The announced length is the true length when the message has fewer than 65536 bytes. -/
theorem c09_announced_length (body : Bytes) (h : body.length < 65536) : value (le 2 body.length) = body.length := by
  rw [le_eq_leBytes]
  have := leVal_leBytes 2 body.length
  rw [value_eq_leVal, this]
  exact Nat.mod_eq_of_lt h

/-- C09. A message router request on its own, and the one made without arguments: service code 0, an empty path, no data. -/
theorem c09_router_request : (∀ (service : UInt8) (p : Path) (pad : Bool) (segs : List Segment) (data : Option Obj) (bs : Bytes),
      PathIs p pad segs → EncodesOpt data bs →
      Encodes (MessageRouterRequest.obj ⟨service, p, data⟩) ([service] ++ path pad segs ++ bs)) ∧
    (∀ service, Encodes (MessageRouterRequest.new service).obj [service, 0]) ∧
    Encodes MessageRouterRequest.new.obj [0, 0] := by
  have key : ∀ (service : UInt8) (p : Path) (pad : Bool) (segs : List Segment) (data : Option Obj) (bs : Bytes),
      PathIs p pad segs → EncodesOpt data bs →
      Encodes (MessageRouterRequest.obj ⟨service, p, data⟩) ([service] ++ path pad segs ++ bs) := by
    intro service p pad segs data bs hp hd
    have := MessageRouterRequest.encodes ⟨service, p, data⟩ (bs := bs) hd
    simp only [pathBytes_eq hp, mrRequest, List.append_assoc] at this ⊢
    exact this
  have fresh : ∀ service, Encodes (MessageRouterRequest.new service).obj [service, 0] := fun service =>
    key service Path.mk0 false [] none [] ⟨rfl, rfl⟩ rfl
  exact ⟨key, fresh, fresh 0⟩

/-- Set attribute single with a two byte value. -/
example : PathIs (Path.mk3 1 2 3) false [.class' 1, .instance' 2, .attribute 3] ∧
    EncodesOpt (some (SerializableBuffer.obj ⟨[0xAA, 0xBB]⟩)) [0xAA, 0xBB] :=
  ⟨⟨rfl, rfl⟩, SerializableBuffer.encodes _⟩

/-! ### C10 -/

/-- A call on a path object. -/
def runPathCall (p : Path) : PathCall → Path
  | .add (.class' id) => p.addLogicalClass id
  | .add (.instance' id) => p.addLogicalInstance id
  | .add (.attribute id) => p.addLogicalAttribute id
  | .add (.connectionPoint id) => p.addLogicalConnectionPoint id
  | .reset => p.reset
  | .setPad pad => p.setPadAfterLength pad

theorem pathIs_run (calls : List PathCall) : ∀ (p : Path) (pad : Bool) (segs : List Segment), PathIs p pad segs →
    PathIs (calls.foldl runPathCall p) (padAfter calls pad) (segmentsAfter calls segs) := by
  induction calls with
  | nil => intro p pad segs h; exact h
  | cons c cs ih =>
    intro p pad segs h
    obtain ⟨h1, h2⟩ := h
    cases c with
    | add s =>
      refine ih _ pad (segs ++ [s]) ?_
      cases s <;> exact ⟨h1, by simp [runPathCall, Path.addLogicalClass, Path.addLogicalInstance,
        Path.addLogicalAttribute, Path.addLogicalConnectionPoint, Path.addSegment, h2, Segment.bytes]⟩
    | reset => exact ih _ pad [] ⟨h1, rfl⟩
    | setPad b => exact ih _ b segs ⟨rfl, h2⟩

/-- C10. Any sequence of calls on a new path. -/
theorem c10_path_encodes_segments (pad : Bool) (calls : List PathCall) :
    let p := calls.foldl runPathCall (Path.mk0 pad)
    let bs := path (padAfter calls pad) (segmentsAfter calls [])
    Writes p.serialize bs ∧ p.getLength = bs.length := by
  intro p bs
  have := pathBytes_eq (pathIs_run calls (Path.mk0 pad) pad [] ⟨rfl, rfl⟩)
  refine ⟨Writes.of_eq p.writes this, ?_⟩
  rw [p.getLength_eq]
  exact congrArg List.length this

/-- C10. The count byte is right below 256 segments. -/
theorem c10_count (pad : Bool) (segs : List Segment) (h : segs.length < 256) :
    ∃ b rest, path pad segs = b :: rest ∧ b.toNat = segs.length := by
  refine ⟨UInt8.ofNat segs.length, (if pad then [0] else []) ++ (segs.map Segment.bytes).flatten, ?_, ?_⟩
  · rw [path, ← le8_ofNat, le8_eq]; rfl
  · rw [UInt8.toNat_ofNat', Nat.mod_eq_of_lt h]

/-- C10. With exactly 256 segments the count byte is zero: the bound in the claim is sharp. -/
theorem c10_count_sharp (pad : Bool) (segs : List Segment) (h : segs.length = 256) :
    ∃ rest, path pad segs = 0 :: rest := by
  refine ⟨(if pad then [0] else []) ++ (segs.map Segment.bytes).flatten, ?_⟩
  rw [path, h]
  have : le 1 256 = [0] := by decide
  rw [this]; rfl

/-- A path that is reset and rebuilt. -/
example : segmentsAfter [.add (.class' 9), .reset, .add (.class' 4), .add (.connectionPoint 0x70)] [] =
    [.class' 4, .connectionPoint 0x70] ∧
    path true [.class' 4, .connectionPoint 0x70] = [2, 0, 0x20, 4, 0x2C, 0x70] := by decide

/-! ### C11 -/

/-- `a ||| b` is `a + b` when `a` is below a power of two and `b` is a multiple of it. -/
theorem or_eq_add {a b i : Nat} (ha : a < 2 ^ i) (hb : 2 ^ i ∣ b) : a ||| b = a + b := by
  obtain ⟨m, rfl⟩ := hb
  rw [Nat.or_comm, Nat.add_comm, Nat.two_pow_add_eq_or_of_lt ha]

theorem or5_eq_add {s v p t h : Nat} (hs : s < 32768) (hv : v = 0 ∨ v = 33554432) (hp : p < 4) (ht : t < 4)
    (hh : h = 0 ∨ h = 2147483648) :
    s ||| v ||| p * 67108864 ||| t * 536870912 ||| h = s + v + p * 67108864 + t * 536870912 + h := by
  rw [or_eq_add (a := s) (b := v) (i := 25) (by simp; omega) (by rcases hv with h | h <;> rw [h] <;> decide)]
  rw [or_eq_add (a := s + v) (i := 26) (by simp; omega) ⟨p, by omega⟩]
  rw [or_eq_add (a := s + v + p * 67108864) (i := 29) (by simp; omega) ⟨t, by omega⟩]
  rw [or_eq_add (a := s + v + p * 67108864 + t * 536870912) (i := 31) (by simp; omega)
    (by rcases hh with h | h <;> rw [h] <;> decide)]

/-- C11. The packed word is the sum of the five fields in their positions. -/
theorem c11_packed_word (size : UInt16) (isVariable : Bool) (priority type : UInt8) (shared : Bool) :
    (ForwardOpenRequest.calcConnectionParams size isVariable priority type shared).toNat =
      connParams size.toNat isVariable priority.toNat type.toNat shared := by
  have hs := size.toNat_lt
  have hm : size.toNat % 32768 < 32768 := Nat.mod_lt _ (by decide)
  have hp : priority.toNat % 4 < 4 := Nat.mod_lt _ (by decide)
  have ht : type.toNat % 4 < 4 := Nat.mod_lt _ (by decide)
  have e1 : (size.toUInt32 &&& (0x7FFF : UInt32)).toNat = size.toNat % 32768 := by
    have := Nat.and_two_pow_sub_one_eq_mod size.toNat 15
    simp only [UInt32.toNat_and, UInt16.toNat_toUInt32]
    exact this
  have e2 : (if isVariable then (0x2000000 : UInt32) else 0).toNat = if isVariable then 33554432 else 0 := by
    cases isVariable <;> rfl
  have low : ∀ x : UInt8, (x.toUInt32 &&& (0x03 : UInt32)).toNat = x.toNat % 4 := by
    intro x
    have := Nat.and_two_pow_sub_one_eq_mod x.toNat 2
    simp only [UInt32.toNat_and, UInt8.toNat_toUInt32]
    exact this
  have e3 : ((priority.toUInt32 &&& (0x03 : UInt32)) <<< (26 : UInt32)).toNat = priority.toNat % 4 * 67108864 := by
    rw [UInt32.toNat_shiftLeft, low, Nat.shiftLeft_eq]
    show priority.toNat % 4 * 67108864 % 4294967296 = _
    omega
  have e4 : ((type.toUInt32 &&& (0x03 : UInt32)) <<< (29 : UInt32)).toNat = type.toNat % 4 * 536870912 := by
    rw [UInt32.toNat_shiftLeft, low, Nat.shiftLeft_eq]
    show type.toNat % 4 * 536870912 % 4294967296 = _
    omega
  have e5 : (if shared then (0x80000000 : UInt32) else 0).toNat = if shared then 2147483648 else 0 := by
    cases shared <;> rfl
  unfold ForwardOpenRequest.calcConnectionParams connParams
  rw [UInt32.toNat_or, UInt32.toNat_or, UInt32.toNat_or, UInt32.toNat_or, e1, e2, e3, e4, e5]
  exact or5_eq_add hm (by cases isVariable <;> simp) hp ht (by cases shared <;> simp)

theorem connParams_fields (s v p t h : Nat) (hs : s < 32768) (hv : v < 2) (hp : p < 4) (ht : t < 4) :
    let w := s + v * 33554432 + p * 67108864 + t * 536870912 + h * 2147483648
    w % 32768 = s ∧ w / 32768 % 1024 = 0 ∧ w / 33554432 % 2 = v ∧ w / 67108864 % 4 = p ∧
    w / 268435456 % 2 = 0 ∧ w / 536870912 % 4 = t ∧ w / 2147483648 = h := by
  intro w
  refine ⟨?_, ?_, ?_, ?_, ?_, ?_, ?_⟩ <;> omega

/-- C11. Every field can be read back from the word whatever the others are, and no other bit is set. -/
theorem c11_fields_do_not_interfere (size : UInt16) (isVariable : Bool) (priority type : UInt8) (shared : Bool) :
    let w := (ForwardOpenRequest.calcConnectionParams size isVariable priority type shared).toNat
    w % 2 ^ 15 = size.toNat % 2 ^ 15 ∧ w / 2 ^ 15 % 2 ^ 10 = 0 ∧ (w / 2 ^ 25 % 2 = 1 ↔ isVariable = true) ∧
    w / 2 ^ 26 % 4 = priority.toNat % 4 ∧ w / 2 ^ 28 % 2 = 0 ∧ w / 2 ^ 29 % 4 = type.toNat % 4 ∧
    (w / 2 ^ 31 = 1 ↔ shared = true) := by
  intro w
  have hw : w = connParams size.toNat isVariable priority.toNat type.toNat shared := c11_packed_word ..
  have hw' : w = size.toNat % 32768 + isVariable.toNat * 33554432 + priority.toNat % 4 * 67108864 +
      type.toNat % 4 * 536870912 + shared.toNat * 2147483648 := by
    rw [hw]
    unfold connParams
    cases isVariable <;> cases shared <;> rfl
  obtain ⟨h1, h2, h3, h4, h5, h6, h7⟩ := connParams_fields (size.toNat % 32768) isVariable.toNat (priority.toNat % 4)
    (type.toNat % 4) shared.toNat (Nat.mod_lt _ (by decide)) (Bool.toNat_lt _) (Nat.mod_lt _ (by decide))
    (Nat.mod_lt _ (by decide))
  rw [← hw'] at h1 h2 h3 h4 h5 h6 h7
  refine ⟨h1, h2, ?_, h4, h5, h6, ?_⟩
  · refine Iff.of_eq ?_
    show (w / 33554432 % 2 = 1) = _
    rw [h3]; cases isVariable <;> simp
  · refine Iff.of_eq ?_
    show (w / 2147483648 = 1) = _
    rw [h7]; cases shared <;> simp

/-- The T to O parameters of the library's laser scanner test. -/
example : ForwardOpenRequest.calcConnectionParams 0x1FE8 true 2 2 false = 0x4A001FE8 := by decide

/-! ### C12, C13 -/

/-- C12. Identity records with names up to 255 characters. -/
theorem c12_identity_round_trip (x : IdentityItemData) (h : x.productName.length ≤ 255) :
    ∃ bs, Encodes x.obj bs ∧ ∀ d, Parses IdentityItemData.deserialize d bs () x :=
  ⟨_, IdentityItemData.encodes x (by omega), fun d => IdentityItemData.parses d x (by omega)⟩

/-- A record with a name. -/
def sampleIdentity : IdentityItemData :=
  { encapProtocolVersion := 1, sockaddr := ⟨2, 0xAF12, 0x0A0A0A0A, (0, 0)⟩, vendorId := 0x0123, deviceType := 0x2B,
    productCode := 1, revision := (1, 2), status := 0x60, serialNumber := 0x12345678,
    productName := [0x4F, 0x53, 0x33, 0x32], state := 3 }

example : sampleIdentity.productName.length ≤ 255 ∧ sampleIdentity.getLength = 38 := by decide

/-- C13 is false: a record with a name of 256 or more characters never reports the length it writes, and parses
back as a record with a shorter name. -/
theorem c13_violated (x : IdentityItemData) (h : 256 ≤ x.productName.length) :
    (¬ ∃ bs, Encodes x.obj bs) ∧
    ∃ bs y, Writes x.serialize bs ∧ (∀ d, Parses IdentityItemData.deserialize d bs () y) ∧
      y.productName = x.productName.take (x.productName.length % 256) ∧ y ≠ x := by
  have hw := x.writes
  have hm : x.productName.length % 256 < 256 := Nat.mod_lt _ (by decide)
  have hlen : (x.productName.take (x.productName.length % 256)).length = x.productName.length % 256 := by
    rw [List.length_take]; omega
  refine ⟨?_, ?_⟩
  · rintro ⟨bs, hb⟩
    have e1 := hb.writes.stream .new
    have e2 := hw.stream .new
    simp only [IdentityItemData.obj] at e1
    rw [e1] at e2
    simp only [Prod.mk.injEq, true_and, Writer.stream.injEq, appended_new, StreamWriter.mk.injEq, and_true] at e2
    have e3 := hb.length
    rw [e2, identity_length, hlen] at e3
    simp only [IdentityItemData.obj, IdentityItemData.getLength] at e3
    omega
  · refine ⟨_, { x with productName := x.productName.take (x.productName.length % 256) }, hw, fun d => ?_, rfl, ?_⟩
    · exact IdentityItemData.parses d { x with productName := x.productName.take (x.productName.length % 256) } (by
        simp only [hlen]; exact hm)
    · intro e
      have := congrArg (fun y => y.productName.length) e
      simp only [hlen] at this
      omega

/-- C13 (partial: names up to 255 characters). Missing: longer names, for which it is false. -/
theorem c13_identity_round_trip_partial (x : IdentityItemData) (h : x.productName.length < 256) :
    Encodes x.obj (identity x x.productName) ∧
    ∀ d, Parses IdentityItemData.deserialize d (identity x x.productName) () x :=
  ⟨IdentityItemData.encodes x h, fun d => IdentityItemData.parses d x h⟩

example : 256 ≤ ({ sampleIdentity with productName := List.replicate 300 0x41 } : IdentityItemData).productName.length := by
  rw [List.length_replicate]; decide

/-! ### C14 -/

/-- C14. -/
theorem c14_round_trips :
    (∀ x : SequencedAddressItem, Writes x.serialize (le 4 x.connectionId.toNat ++ le 4 x.sequenceNum.toNat) ∧
      ∀ d, Parses SequencedAddressItem.deserialize d (le 4 x.connectionId.toNat ++ le 4 x.sequenceNum.toNat) () x) ∧
    (∀ x : RegisterSessionData, Writes x.serialize (le 2 x.protocolVersion.toNat ++ le 2 x.options.toNat) ∧
      ∀ d, Parses RegisterSessionData.deserialize d (le 2 x.protocolVersion.toNat ++ le 2 x.options.toNat) () x) :=
  ⟨fun x => ⟨(SequencedAddressItem.encodes x).writes, fun d => SequencedAddressItem.parses d _ _⟩,
   fun x => ⟨(RegisterSessionData.encodes x).writes, fun d => RegisterSessionData.parses d _ _⟩⟩

example : le 4 (0x00010002 : UInt32).toNat ++ le 4 (5 : UInt32).toNat = [2, 0, 1, 0, 5, 0, 0, 0] := by decide

/-! ### C15 -/

/-- C15. For a class whose sized `deserialize` delegates to the unsized one: the sequence number, then the item. -/
theorem c15_sequenced_item {τ : Type} (cls : Class τ) (deleg : cls.deserializeLen = delegateLen) (base x : τ)
    (o : Obj) (bs : Bytes) (ho : Encodes o bs) (hp : ∀ c, ParsesAt c cls.deserialize base bs () x)
    (old seq : UInt16) (n : Nat) :
    Encodes (SequencedDataItem.obj o seq) (le 2 seq.toNat ++ bs) ∧
    Parses (SequencedDataItem.deserialize cls) ⟨base, old, false⟩ (le 2 seq.toNat ++ bs) () ⟨x, seq, false⟩ ∧
    Parses ((SequencedDataItem.cls cls).runLen n) ⟨base, old, false⟩ (le 2 seq.toNat ++ bs) () ⟨x, seq, false⟩ := by
  have hbase : ∀ c f s, ParsesAt c (SequencedDataItem.onBase cls.deserialize) (⟨base, s, f⟩ : SequencedDataItem τ)
      bs () ⟨x, s, f⟩ := fun c f s =>
    (ParsesAt.part (fun d : SequencedDataItem τ => d.base) (fun b d => { d with base := b }) ⟨base, s, f⟩ rfl (hp c))
  refine ⟨SequencedDataItem.encodes ho seq, ?_, ?_⟩
  · intro c
    refine ParsesAt.bind0 (ParsesAt.getObj _ _) ?_
    refine ParsesAt.ite_neg (by simp) ?_
    refine ParsesAt.congr_bytes (ParsesAt.bind (ParsesAt.member_enc Codec.u16_lawful _ _ _ _ seq)
      (ParsesAt.bind0 (ParsesAt.modifyObj _ _ _) (ParsesAt.bind (hbase _ _ _) (ParsesAt.modifyObj _ _ _)))) ?_
    simp [Codec.u16, le16_eq_le]
  · intro c
    have hinner : ∀ c, ParsesAt c (SequencedDataItem.deserialize cls) (⟨base, seq, true⟩ : SequencedDataItem τ)
        bs () ⟨x, seq, true⟩ := fun c =>
      ParsesAt.bind0 (ParsesAt.getObj _ _) (ParsesAt.ite_pos rfl (hbase _ _ _))
    simp only [Class.runLen, SequencedDataItem.cls, id, SequencedDataItem.deserializeLen]
    refine ParsesAt.bind0 (ParsesAt.getObj _ _) ?_
    refine ParsesAt.ite_neg (by simp) ?_
    rw [deleg]
    refine ParsesAt.congr_bytes (ParsesAt.bind (ParsesAt.member_enc Codec.u16_lawful _ _ _ _ seq)
      (ParsesAt.bind0 (ParsesAt.modifyObj _ _ _) (ParsesAt.bind (hinner _) (ParsesAt.modifyObj _ _ _)))) ?_
    simp [Codec.u16, le16_eq_le]

/-- C15. The same for a raw buffer, whose sized `deserialize` is its own. -/
theorem c15_sequenced_raw (base : SerializableBuffer) (bs : Bytes) (old seq : UInt16)
    (small : bs.length < 2147483648) :
    Encodes (SequencedDataItem.obj (SerializableBuffer.obj ⟨bs⟩) seq) (le 2 seq.toNat ++ bs) ∧
    Parses ((SequencedDataItem.cls SerializableBuffer.cls).runLen (2 + bs.length)) ⟨base, old, false⟩
      (le 2 seq.toNat ++ bs) () ⟨⟨bs⟩, seq, false⟩ := by
  have hbase : ∀ c, ParsesAt c (SequencedDataItem.onBase (SerializableBuffer.deserializeLen bs.length))
      (⟨base, seq, true⟩ : SequencedDataItem SerializableBuffer) bs () ⟨⟨bs⟩, seq, true⟩ := fun c =>
    ParsesAt.part (fun d : SequencedDataItem SerializableBuffer => d.base) (fun b d => { d with base := b })
      ⟨base, seq, true⟩ rfl (ParsesAt.rawBuffer c base bs)
  refine ⟨SequencedDataItem.encodes (SerializableBuffer.encodes _) seq, fun c => ?_⟩
  simp only [Class.runLen, SequencedDataItem.cls, id, SequencedDataItem.deserializeLen]
  refine ParsesAt.bind0 (ParsesAt.getObj _ _) ?_
  refine ParsesAt.ite_neg (by simp) ?_
  rw [sizeSub_of_le (by omega) (by omega), Nat.add_sub_cancel_left]
  refine ParsesAt.congr_bytes (ParsesAt.bind (ParsesAt.member_enc Codec.u16_lawful _ _ _ _ seq)
    (ParsesAt.bind0 (ParsesAt.modifyObj _ _ _) (ParsesAt.bind (hbase _) (ParsesAt.modifyObj _ _ _)))) ?_
  simp [Codec.u16, le16_eq_le]

/-- A wrapped sequenced address item. -/
example : SequencedAddressItem.cls.deserializeLen = delegateLen ∧
    Encodes (SequencedAddressItem.obj ⟨1, 2⟩) (seqAddress 1 2) ∧
    ∀ c, ParsesAt c SequencedAddressItem.cls.deserialize ⟨0, 0⟩ (seqAddress 1 2) () ⟨1, 2⟩ :=
  ⟨rfl, SequencedAddressItem.encodes _, SequencedAddressItem.parses _ _ _⟩

end Eip
