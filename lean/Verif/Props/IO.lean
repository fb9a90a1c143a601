import Verif.Lemmas.Sends
import Verif.Lemmas.Requests
import Verif.Props.Commands
import Verif.Props.Wire
/-
C58, C60, C61: IO packets, and what happens to oversized data.
-/
namespace Eip
open Spec

/-! ### C58 -/

/-- C58. If the datagram starts with a common packet format packet, `receiveIOPacket` returns its items, with the bytes
of the datagram as data (a null pointer for an empty item); this was the only socket call. -/
theorem c58_items (w : World) (works : (w.env w.clock).fails = false) (l : List (UInt16 × Bytes)) (ok : CpfOk l)
    (tail : Bytes) (h : delivered w.env w.clock = cpf l ++ tail) :
    ∃ w', Session.receiveIOPacket w = (.ok ⟨l.map (fun i => ⟨i.1, rawData i.2⟩)⟩, w') ∧
      w'.trace = w.trace ++ [.received .io (cpf l ++ tail) true] := by
  have e := receiveIO_eq w
  rw [works, h, (CPFPacket.parses l ok.1 ok.2 ⟨[]⟩ 0).buffer tail] at e
  exact ⟨_, e, rfl⟩

/-- C58. Any other datagram is truncated, and `length_error` is thrown. -/
theorem c58_truncated (w : World) (works : (w.env w.clock).fails = false)
    (h : ¬ ∃ l tail, CpfOk l ∧ delivered w.env w.clock = cpf l ++ tail) :
    (∃ l missing, CpfOk l ∧ missing ≠ [] ∧ delivered w.env w.clock ++ missing = cpf l) ∧
    ∃ what w', Session.receiveIOPacket w = (.throw (lengthError what), w') := by
  rcases covers_cpf (delivered w.env w.clock) with ⟨cs, tail, ⟨l, ok, rfl⟩, e⟩ | ⟨cs, m, ⟨l, ok, rfl⟩, hm, e⟩
  · exact absurd ⟨l, tail, ok, e⟩ h
  · refine ⟨⟨l, m, ok, hm, e.symm⟩, ?_⟩
    obtain ⟨what, d1, r1, e'⟩ := (CPFPacket.parses l ok.1 ok.2 ⟨[]⟩ 0).short _ m e hm
    have e2 := receiveIO_eq w
    rw [works, e'] at e2
    exact ⟨what, _, e2⟩

/-- C58. A failed receive is reported as such. -/
theorem c58_failed (w : World) (fails : (w.env w.clock).fails = true) :
    ∃ w', Session.receiveIOPacket w = (.throw systemError, w') := by
  have e := receiveIO_eq w
  rw [fails] at e
  exact ⟨_, e⟩

/-- A datagram with a sequenced address item and a data item. -/
example : delivered (answering [2, 0, 0x02, 0x80, 8, 0, 1, 0, 0, 0, 5, 0, 0, 0, 0xB1, 0, 2, 0, 7, 8]).env 0 =
    cpf [(0x8002, seqAddress 1 5), (0xB1, [7, 8])] ++ [] := by decide +kernel

/-! ### C60 -/

/-- C60. Sending a packet whose items report their true lengths is one send on the IO socket, of exactly the packet's
encoding; it throws only if the socket does. -/
theorem c60_sends (w : World) (p : CPFPacket) (l : List (UInt16 × Bytes)) (h : ItemsAre p.items l) (ok : CpfOk l) :
    ∃ w', Session.sendIOPacket p w =
      (if (w.env w.clock).fails then .throw systemError else .ok (), w') ∧
      w'.trace = w.trace ++ [.sent .io (cpf l) (!(w.env w.clock).fails)] ∧ w'.s = w.s := by
  have e := sendIO_eq (Serializes.of (c05_true_length_partial p l h ok.2)) w
  cases hf : (w.env w.clock).fails with
  | true => rw [hf] at e; exact ⟨_, e, rfl, rfl⟩
  | false => rw [hf] at e; exact ⟨_, e, rfl, rfl⟩

/-- C60. A session that receives the datagram sent by another one gets the items back. -/
theorem c60_round_trip (w w' v : World) (p : CPFPacket) (l : List (UInt16 × Bytes)) (h : ItemsAre p.items l) (ok : CpfOk l)
    (s : Sock) (bytes : Bytes) (sent : w'.trace = w.trace ++ [.sent s bytes true])
    (run : Session.sendIOPacket p w = (.ok (), w')) (works : (v.env v.clock).fails = false)
    (arrives : (v.env v.clock).data = bytes) (fits : bytes.length ≤ 4096) :
    s = .io ∧ ∃ v', Session.receiveIOPacket v = (.ok ⟨l.map (fun i => ⟨i.1, rawData i.2⟩)⟩, v') := by
  obtain ⟨w1, e, t, _⟩ := c60_sends w p l h ok
  rw [run] at e
  cases hf : (w.env w.clock).fails with
  | true => rw [hf] at e; cases e
  | false =>
    rw [hf] at e t
    cases e
    rw [sent] at t
    have := List.append_cancel_left t
    simp at this
    obtain ⟨rfl, rfl⟩ := this
    refine ⟨rfl, ?_⟩
    obtain ⟨v', e', _⟩ := c58_items v works l ok [] (by
      rw [delivered, arrives, List.append_nil, List.take_of_length_le fits])
    exact ⟨v', e'⟩

/-- An IO packet that is sent. -/
example : (Session.sendIOPacket ⟨[⟨0x8002, some (SequencedAddressItem.obj ⟨1, 5⟩)⟩,
    ⟨0xB1, some (SerializableBuffer.obj ⟨[7, 8]⟩)⟩]⟩ (answering [])).2.trace =
    [.sent .io (cpf [(0x8002, seqAddress 1 5), (0xB1, [7, 8])]) true] := by decide +kernel

/-! ### C61 -/

/-- The value of the length field of a frame. -/
def lengthField (bytes : Bytes) : Nat := value ((bytes.drop 2).take 2)

/-- A frame whose length fields agree with its contents: the frame's payload is as long as announced, and in a
send-RR-data frame every item is. -/
def Sound (bytes : Bytes) : Prop :=
  ∃ cmd handle payload, payload.length < 65536 ∧ bytes = request cmd handle payload ∧
    (cmd = 0x6F → ∃ l, CpfOk l ∧ payload = le 4 0 ++ le 2 0 ++ cpf l)

theorem request_field (cmd : Nat) (handle : UInt32) (payload : Bytes) :
    (request cmd handle payload).length = 24 + payload.length ∧
    lengthField (request cmd handle payload) = payload.length % 65536 := by
  constructor
  · simp [request]; omega
  · have : ((request cmd handle payload).drop 2).take 2 = le 2 payload.length := by
      have := slice (le 2 cmd) (le 2 payload.length) (le 4 handle.toNat ++ le 4 0 ++ le 4 0 ++ le 4 0 ++ le 4 0 ++ payload)
        (le_length ..) (le_length ..)
      simp only [request, List.append_assoc] at this ⊢
      exact this
    rw [lengthField, this, value_eq_leVal, le_eq_leBytes, leVal_leBytes]

theorem Sound.agrees {bytes : Bytes} (h : Sound bytes) : bytes.length = 24 + lengthField bytes := by
  obtain ⟨cmd, handle, payload, hl, rfl, _⟩ := h
  obtain ⟨h1, h2⟩ := request_field cmd handle payload
  rw [h1, h2, Nat.mod_eq_of_lt hl]

theorem command_length (service : UInt8) (segs : List Segment) (data : Bytes) :
    (rrData 0 0 (mrRequest service (path false segs) data)).length = 18 + 2 * segs.length + data.length := by
  have h : ∀ segs : List Segment, ((segs.map Segment.bytes).flatten).length = 2 * segs.length := by
    intro segs
    induction segs with
    | nil => rfl
    | cons a l ih =>
      have : a.bytes.length = 2 := by cases a <;> rfl
      simp only [List.map_cons, List.flatten_cons, List.length_append, ih, this, List.length_cons]
      omega
  simp only [rrData_length, mrRequest, path, List.length_append, le_length, List.length_cons, List.length_nil, h]
  simp
  omega

theorem Sound.command (handle : UInt32) (service : UInt8) (segs : List Segment) (data : Bytes)
    (small : 18 + 2 * segs.length + data.length < 65536) : Sound (command handle service segs data) := by
  have h := command_length service segs data
  refine ⟨_, _, _, by rw [h]; exact small, rfl, fun _ => ⟨_, ?_, rfl⟩⟩
  rw [rrData_length] at h
  refine ⟨by simp, ?_⟩
  intro i hi
  simp only [List.mem_cons, List.not_mem_nil, or_false] at hi
  rcases hi with rfl | rfl
  · simp
  · simp only
    omega

/-- C61 is false: every set attribute command with 65512 bytes or more sends a frame whose length field is wrong, and
returns normally if the reply is good. -/
theorem c61_violated (x y z : UInt8) (data : Option Obj) (bs : Bytes) (hd : EncodesOpt data bs) (big : 65512 ≤ bs.length)
    (w : World) :
    (∃ bytes ok rest, (Session.setSingleAttributeSerializable x y z data w).2.trace =
        w.trace ++ .sent .tcp bytes ok :: rest ∧
      bytes.length = 48 + bs.length ∧ bytes.length ≠ 24 + lengthField bytes) ∧
    (Works w.env w.clock → (∃ s d, Response w.s.sessionId (delivered w.env (w.clock + 1)) s 0 d) →
      (Session.setSingleAttributeSerializable x y z data w).1 = .ok ()) := by
  obtain ⟨⟨ok, rest, h⟩, h2⟩ := c39_set x y z data bs hd w
  refine ⟨⟨_, ok, rest, h, ?_⟩, fun hw hr => ?_⟩
  · have hl := command_length 0x10 [.class' x, .instance' y, .attribute z] bs
    obtain ⟨h1, h2⟩ := request_field 0x6F w.s.sessionId
      (rrData 0 0 (mrRequest 0x10 (path false [.class' x, .instance' y, .attribute z]) bs))
    rw [command, h1, h2, hl]
    simp only [List.length_cons, List.length_nil]
    omega
  · obtain ⟨w', e, _⟩ := h2 hw hr
    rw [e]

/-- 65512 bytes of data. -/
example : ∃ bs : Bytes, EncodesOpt (some (SerializableBuffer.obj ⟨bs⟩)) bs ∧ 65512 ≤ bs.length :=
  ⟨List.replicate 65512 0, SerializableBuffer.encodes _, by rw [List.length_replicate]; exact Nat.le_refl _⟩

/-- C61 is also false for IO packets: one with 65536 items or more is sent with a wrong number of items. -/
theorem c61_violated_io (p : CPFPacket) (l : List (UInt16 × Bytes)) (h : ItemsAre p.items l)
    (small : ∀ i ∈ l, i.2.length < 65536) (many : 65536 ≤ l.length) (w : World)
    (works : (w.env w.clock).fails = false) :
    ∃ bytes w', Session.sendIOPacket p w = (.ok (), w') ∧ w'.trace = w.trace ++ [.sent .io bytes true] ∧
      value (bytes.take 2) < l.length := by
  have e := sendIO_eq (Serializes.of (c05_true_length_partial p l h small)) w
  rw [works] at e
  refine ⟨cpf l, _, e, rfl, ?_⟩
  have : (cpf l).take 2 = le 2 l.length := by
    rw [cpf, List.take_append_of_le_length (by simp), List.take_of_length_le (by simp)]
  rw [this, value_eq_leVal, le_eq_leBytes, leVal_leBytes]
  omega

/-- 65536 empty items. -/
example : ∃ (p : CPFPacket) (l : List (UInt16 × Bytes)), ItemsAre p.items l ∧ (∀ i ∈ l, i.2.length < 65536) ∧
    65536 ≤ l.length := by
  have key : ∀ n : Nat, ItemsAre (List.replicate n CPFItem.null) (List.replicate n (0, [])) := by
    intro n
    induction n with
    | zero => exact .nil
    | succ n ih => rw [List.replicate_succ, List.replicate_succ]; exact .cons ⟨rfl, rfl⟩ ih
  refine ⟨⟨_⟩, _, key 65536, ?_, by rw [List.length_replicate]; exact Nat.le_refl _⟩
  intro i hi
  rw [(List.mem_replicate.mp hi).2]
  simp

/-- The data of a call is small: under 65512 bytes in a set attribute command, fewer than 65536 items of fewer than
65536 bytes in an IO packet. -/
def SmallData : Op → Prop
  | .setAttribute _ _ _ data => ∃ bs, EncodesOpt data bs ∧ bs.length < 65512
  | .sendIOPacket p => ∃ l, ItemsAre p.items l ∧ CpfOk l
  | _ => True

/-- C61 (partial: the payload fits). As long as the data of the call is small, every frame sent on the control socket
has length fields that agree with its contents, and every datagram sent on the IO socket is the encoding of a packet.
Missing: larger set attribute data and IO packets with more items, for which it is false. -/
theorem c61_fits_partial (op : Op) (small : SmallData op) (w : World) (s : Sock) (bytes : Bytes) (ok : Bool)
    (evs : List Ev) (new : (op.run w).2.trace = w.trace ++ evs) (sent : .sent s bytes ok ∈ evs) :
    (s = .tcp → Sound bytes) ∧ (s = .io → ∃ l, CpfOk l ∧ bytes = cpf l) := by
  have hs := op_sends op w new sent
  clear new sent
  cases hs with
  | registration => exact ⟨fun _ => ⟨0x65, 0, register 1 0, by decide, rfl, fun h => absurd h (by decide)⟩, fun h => nomatch h⟩
  | unregister => exact ⟨fun _ => ⟨0x66, _, [], by decide, rfl, fun h => absurd h (by decide)⟩, fun h => nomatch h⟩
  | get => exact ⟨fun _ => Sound.command _ _ _ _ (by simp), fun h => nomatch h⟩
  | set x y z data _ h =>
    obtain ⟨bs, hd, hl⟩ := small
    have e := rr_serializes w.s.sessionId 0x10 (path3 x y z) hd
    have e1 := h w
    rw [e w] at e1
    cases e1
    exact ⟨fun _ => Sound.command _ _ _ _ (by simp only [List.length_cons, List.length_nil]; omega), fun h => nomatch h⟩
  | create o t =>
    refine ⟨fun _ => Sound.command _ _ _ _ ?_, (nomatch ·)⟩
    have hp : pathBytes (w.s.prepareConnection o t).createForwardOpenRequest.path =
      path false [.class' 4, .instance' 1, .connectionPoint o.assemblyId, .connectionPoint t.assemblyId] :=
      pathBytes_eq ⟨rfl, rfl⟩
    simp [forwardOpenBytes, forwardOpen, hp, path, Segment.bytes]
  | closeConn n c h =>
    refine ⟨fun _ => Sound.command _ _ _ _ ?_, (nomatch ·)⟩
    simp [forwardClose, path, Segment.bytes]
  | io p _ h =>
    obtain ⟨l, hi, ok⟩ := small
    have e := Serializes.of (c05_true_length_partial p l hi ok.2)
    have e1 := h w
    rw [e w] at e1
    cases e1
    exact ⟨(nomatch ·), fun _ => ⟨l, ok, rfl⟩⟩

theorem sum_le (l : List (UInt16 × Bytes)) :
    (l.map ((fun bs : Bytes => 4 + bs.length % 65536) ∘ (·.2))).sum ≤ (l.map (fun i => 4 + i.2.length)).sum := by
  induction l with
  | nil => exact Nat.le_refl _
  | cons a l ih =>
    simp only [List.map_cons, List.sum_cons, Function.comp] at ih ⊢
    have := Nat.mod_le a.2.length 65536
    omega

theorem sum_lt (l : List (UInt16 × Bytes)) (big : ∃ i ∈ l, 65536 ≤ i.2.length) :
    (l.map ((fun bs : Bytes => 4 + bs.length % 65536) ∘ (·.2))).sum < (l.map (fun i => 4 + i.2.length)).sum := by
  induction l with
  | nil => obtain ⟨i, hi, _⟩ := big; cases hi
  | cons a l ih =>
    obtain ⟨i, hi, hb⟩ := big
    rcases List.mem_cons.mp hi with rfl | hi
    · have := sum_le l
      simp only [List.map_cons, List.sum_cons, Function.comp] at this ⊢
      have := Nat.mod_lt i.2.length (show 65536 > 0 by decide)
      omega
    · have := ih ⟨i, hi, hb⟩
      simp only [List.map_cons, List.sum_cons, Function.comp] at this ⊢
      have := Nat.mod_le a.2.length 65536
      omega

/-- C61 (partial). An IO packet with an item of 65536 bytes or more is refused with `length_error`; nothing is sent. -/
theorem c61_io_refused_partial (p : CPFPacket) (l : List (UInt16 × Bytes)) (h : ItemsAre p.items l)
    (big : ∃ i ∈ l, 65536 ≤ i.2.length) (w : World) :
    ∃ what, Session.sendIOPacket p w = (.throw (lengthError what), w) := by
  obtain ⟨h1, h2⟩ := ItemsAre.encode h
  have hw := CPFPacket.writes h1
  have hg := CPFPacket.getLength_eq h1
  rw [h2] at hw
  have hlt : p.getLength < (cpf l).length := by
    rw [hg, cpf_length, List.map_map]
    exact Nat.add_lt_add_left (sum_lt l big) 2
  have hr : (BufferWriter.new (List.replicate p.getLength 0)).rest.length = p.getLength := by
    simp [BufferWriter.new]
  obtain ⟨what, w', k, e, _⟩ := hw.full (BufferWriter.new (List.replicate p.getLength 0)) (by rw [hr]; exact hlt)
  refine ⟨what, ?_⟩
  rw [Session.sendIOPacket]
  refine Prog.bind_throw ?_
  rw [sockSend]
  refine Prog.bind_throw ?_
  simp only [serializeToVector, CPFPacket.obj, e]

/-- An item of 65536 bytes. -/
example : ∃ (p : CPFPacket) (l : List (UInt16 × Bytes)), ItemsAre p.items l ∧ ∃ i ∈ l, 65536 ≤ i.2.length :=
  ⟨⟨[⟨0xB1, some (SerializableBuffer.obj ⟨List.replicate 65536 0⟩)⟩]⟩, [(0xB1, List.replicate 65536 0)],
    .cons ⟨rfl, SerializableBuffer.encodes _⟩ .nil, _, List.mem_singleton.mpr rfl,
    by rw [List.length_replicate]; exact Nat.le_refl _⟩

end Eip
