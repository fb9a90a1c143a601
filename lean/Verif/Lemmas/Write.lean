import Verif.Spec.Wire
import Verif.Lemmas.Streams
/-
What each class writes, in terms of the wire format.
-/
namespace Eip
open Spec

theorem Spec.le_succ (k n : Nat) : le (k + 1) n = UInt8.ofNat (n % 256) :: le k (n / 256) := by
  simp only [le, List.range_succ_eq_map, List.map_cons, List.map_map]
  congr 1
  · simp
  · apply List.map_congr_left
    intro i _
    simp [Nat.pow_succ, Nat.div_div_eq_div_mul, Nat.mul_comm]

theorem le_eq_leBytes (k n : Nat) : le k n = leBytes k n := by
  induction k generalizing n with
  | zero => rfl
  | succ k ih => rw [Spec.le_succ, ih, leBytes]

@[simp] theorem le_length (k n : Nat) : (le k n).length = k := by simp [le]

theorem le1_toNat (v : UInt8) : le 1 v.toNat = [v] := by
  rw [le_eq_leBytes, ← le8_eq]; rfl
theorem le8_eq_le (v : UInt8) : le8 v = le 1 v.toNat := (le_eq_leBytes 1 _).symm
theorem le16_eq_le (v : UInt16) : le16 v = le 2 v.toNat := (le_eq_leBytes 2 _).symm
theorem le32_eq_le (v : UInt32) : le32 v = le 4 v.toNat := (le_eq_leBytes 4 _).symm

theorem leBytes_mod (k n : Nat) : leBytes k (n % 256 ^ k) = leBytes k n := by
  induction k generalizing n with
  | zero => rfl
  | succ k ih =>
    simp only [leBytes]
    have e : 256 ^ (k + 1) = 256 * 256 ^ k := by rw [Nat.pow_succ, Nat.mul_comm]
    rw [e, Nat.mod_mul_right_mod, Nat.mod_mul_right_div_self, ih]

theorem le16_ofNat (n : Nat) : le16 (UInt16.ofNat n) = le 2 n := by
  rw [le_eq_leBytes, le16, UInt16.toNat_ofNat', ← leBytes_mod 2 n]
theorem le8_ofNat (n : Nat) : le8 (UInt8.ofNat n) = le 1 n := by
  rw [le_eq_leBytes, le8, UInt8.toNat_ofNat', ← leBytes_mod 1 n]

theorem Writes.of_eq {p : Prog Writer Unit} {bs cs : Bytes} (h : Writes p bs) (e : bs = cs) : Writes p cs := e ▸ h

/-! ### Encapsulation -/

theorem EncapHeader.writes (h : EncapHeader) : Writes h.serialize (Spec.header h) := by
  refine Writes.of_eq (Writes.bind (Writes.write16 _) (Writes.bind (Writes.write16 _) (Writes.bind (Writes.write32 _)
    (Writes.bind (Writes.write32 _) (Writes.bind (Writes.writeBuffer _) (Writes.write32 _)))))) ?_
  simp [Spec.header, Codec.context, Codec.pair, Codec.u32, le16_eq_le, le32_eq_le, List.append_assoc]

@[simp] theorem header_length (h : EncapHeader) : (Spec.header h).length = 24 := by simp [Spec.header]

theorem Spec.EncodesOpt.writes {o : Option Obj} {bs : Bytes} (h : EncodesOpt o bs) :
    Writes (match (generalizing := false) o with | some d => d.serialize | none => pure ()) bs := by
  cases o with
  | none => simp only [EncodesOpt] at h; rw [h]; exact Writes.nil
  | some d => exact Encodes.writes h

theorem Spec.EncodesOpt.length {o : Option Obj} {bs : Bytes} (h : EncodesOpt o bs) :
    (match (generalizing := false) o with | some d => d.getLength | none => 0) = bs.length := by
  cases o with
  | none => simp only [EncodesOpt] at h; rw [h]; rfl
  | some d => exact Encodes.length h

theorem EncapPacket.writes (p : EncapPacket) {bs : Bytes} (h : EncodesOpt p.payload bs) :
    Encodes p.obj (Spec.header p.header ++ bs) where
  writes := Writes.bind (EncapHeader.writes _) h.writes
  length := by
    simp only [EncapPacket.obj, EncapPacket.getLength, EncapHeader.getLength, List.length_append, header_length]
    rw [← h.length]
    rfl

theorem EncapPacket.withPayload_encodes (cmd : UInt16) (handle : UInt32) {o : Option Obj} {bs : Bytes}
    (h : EncodesOpt o bs) : Encodes (EncapPacket.withPayload cmd handle o).obj (request cmd.toNat handle bs) := by
  have h1 := EncapPacket.writes (EncapPacket.withPayload cmd handle o) (bs := bs) h
  have h2 := h.length
  have : Spec.header (EncapPacket.withPayload cmd handle o).header ++ bs = request cmd.toNat handle bs := by
    simp only [EncapPacket.withPayload, EncapPacket.updateLength, EncapHeader.new, Spec.header, request]
    have e : le 2 (match (generalizing := false) o with
        | some d => UInt16.ofNat d.getLength
        | none => 0 : UInt16).toNat = le 2 bs.length := by
      cases o with
      | none => simp only [EncodesOpt] at h; rw [h]; rfl
      | some d => simp only at h2; simp only [h2]; rw [← le16_eq_le, le16_ofNat]
    have e' : ∀ k, le k (0 : UInt32).toNat = le k 0 := fun _ => rfl
    simp only [e', List.append_assoc]
    exact congrArg (fun x => le 2 cmd.toNat ++ (x ++ _)) e
  rwa [this] at h1

theorem EncapPacket.new_encodes (cmd : UInt16) (handle : UInt32) :
    Encodes (EncapPacket.new cmd handle).obj (request cmd.toNat handle []) := by
  have := EncapPacket.withPayload_encodes cmd handle (o := none) (bs := []) rfl
  exact this

/-! ### CPF -/

theorem SerializableBuffer.encodes (b : SerializableBuffer) : Encodes b.obj b.data :=
  ⟨Writes.writeBuffer _, rfl⟩

theorem SerializablePrimitive.encodes {τ : Type} (c : Codec τ) (v : τ) :
    Encodes (SerializablePrimitive.obj c ⟨v⟩) (c.enc v) := ⟨Writes.writeBuffer _, rfl⟩

theorem CPFItem.writes (i : CPFItem) {bs : Bytes} (h : EncodesOpt i.data bs) :
    Writes i.serialize (item i.itemType bs) := by
  refine Writes.of_eq (Writes.bind (Writes.write16 _) (Writes.bind (Writes.write16 _) h.writes)) ?_
  rw [item, List.append_assoc, le16_eq_le i.itemType]
  congr 2
  have h2 := h.length
  obtain ⟨t, o⟩ := i
  cases o with
  | none => simp only at h2; simp only [CPFItem.getDataLength, ← h2]; rfl
  | some d => simp only at h2; simp only [CPFItem.getDataLength, h2, le16_ofNat]

theorem CPFItem.getLength_eq (i : CPFItem) {bs : Bytes} (h : EncodesOpt i.data bs) :
    i.getLength = 4 + bs.length % 65536 := by
  have h2 := h.length
  obtain ⟨t, o⟩ := i
  cases o with
  | none => simp only at h2; simp [CPFItem.getLength, CPFItem.getDataLength, ← h2]
  | some d => simp only at h2; simp [CPFItem.getLength, CPFItem.getDataLength, h2]

@[simp] theorem item_length (t : UInt16) (bs : Bytes) : (item t bs).length = 4 + bs.length := by
  simp [item]; omega

theorem CPFItem.encodes (i : CPFItem) {bs : Bytes} (h : EncodesOpt i.data bs) (hl : bs.length < 65536) :
    Encodes i.obj (item i.itemType bs) where
  writes := i.writes h
  length := by
    simp only [CPFItem.obj, i.getLength_eq h, item_length]; omega

/-- The items of a packet and their payloads, pairwise. -/
inductive ItemsEncode : List CPFItem → List Bytes → Prop
  | nil : ItemsEncode [] []
  | cons {i : CPFItem} {bs : Bytes} {is : List CPFItem} {bss : List Bytes} :
      EncodesOpt i.data bs → ItemsEncode is bss → ItemsEncode (i :: is) (bs :: bss)

theorem ItemsEncode.length {is : List CPFItem} {bss : List Bytes} (h : ItemsEncode is bss) :
    is.length = bss.length := by
  induction h with
  | nil => rfl
  | cons _ _ ih => simp [ih]

/-- Item types and payloads put together. -/
def cpfPairs (is : List CPFItem) (bss : List Bytes) : List (UInt16 × Bytes) :=
  List.zipWith (fun i bs => (i.itemType, bs)) is bss

theorem CPFPacket.serializeItems_writes {is : List CPFItem} {bss : List Bytes} (h : ItemsEncode is bss) :
    Writes (CPFPacket.serializeItems is) (((cpfPairs is bss).map (fun i => item i.1 i.2)).flatten) := by
  induction h with
  | nil => exact Writes.nil
  | cons h _ ih => exact Writes.bind (CPFItem.writes _ h) ih

theorem CPFPacket.writes {p : CPFPacket} {bss : List Bytes} (h : ItemsEncode p.items bss) :
    Writes p.serialize (cpf (cpfPairs p.items bss)) := by
  refine Writes.of_eq (Writes.bind (Writes.write16 _) (CPFPacket.serializeItems_writes h)) ?_
  simp only [cpf, CPFPacket.getItemCount, le16_ofNat, cpfPairs, List.length_zipWith, ← h.length, Nat.min_self]

theorem foldl_getLength (is : List CPFItem) (n : Nat) :
    is.foldl (fun l i => l + i.getLength) n = n + (is.map CPFItem.getLength).sum := by
  induction is generalizing n with
  | nil => simp
  | cons i is ih => simp [ih, Nat.add_assoc]

theorem CPFPacket.getLength_eq {p : CPFPacket} {bss : List Bytes} (h : ItemsEncode p.items bss) :
    p.getLength = 2 + (bss.map (fun bs => 4 + bs.length % 65536)).sum := by
  rw [CPFPacket.getLength, foldl_getLength]
  congr 1
  obtain ⟨is⟩ := p
  simp only at h ⊢
  induction h with
  | nil => rfl
  | cons h _ ih => simp [CPFItem.getLength_eq _ h, ih]

theorem cpf_length (l : List (UInt16 × Bytes)) : (cpf l).length = 2 + (l.map (fun i => 4 + i.2.length)).sum := by
  simp only [cpf, List.length_append, le_length, List.length_flatten, List.map_map]
  congr 2
  apply List.map_congr_left
  intro a _
  simp

theorem CPFPacket.encodes {p : CPFPacket} {bss : List Bytes} (h : ItemsEncode p.items bss)
    (hl : ∀ bs ∈ bss, bs.length < 65536) : Encodes p.obj (cpf (cpfPairs p.items bss)) where
  writes := CPFPacket.writes h
  length := by
    simp only [CPFPacket.obj, CPFPacket.getLength_eq h, cpf_length]
    congr 1
    obtain ⟨is⟩ := p
    simp only at h ⊢
    induction h with
    | nil => rfl
    | cons h _ ih =>
      have h1 := hl _ (List.mem_cons_self)
      have h2 := ih (fun bs hb => hl bs (List.mem_cons_of_mem _ hb))
      simp only [List.map_cons, List.sum_cons, cpfPairs, List.zipWith_cons_cons] at h2 ⊢
      rw [Nat.mod_eq_of_lt h1, h2]

/-! ### Fixed size data -/

theorem RegisterSessionData.encodes (d : RegisterSessionData) :
    Encodes d.obj (register d.protocolVersion d.options) where
  writes := by
    refine Writes.of_eq (Writes.bind (Writes.write16 _) (Writes.write16 _)) ?_
    simp [register, le16_eq_le]
  length := by simp [RegisterSessionData.obj, RegisterSessionData.getLength, register]

theorem SequencedAddressItem.encodes (d : SequencedAddressItem) :
    Encodes d.obj (seqAddress d.connectionId d.sequenceNum) where
  writes := by
    refine Writes.of_eq (Writes.bind (Writes.write32 _) (Writes.write32 _)) ?_
    simp [seqAddress, le32_eq_le]
  length := by simp [SequencedAddressItem.obj, SequencedAddressItem.getLength, seqAddress]

theorem EncapHeader.encodes (h : EncapHeader) : Encodes h.obj (Spec.header h) where
  writes := h.writes
  length := by simp [EncapHeader.obj, EncapHeader.getLength]

theorem sockaddr_enc (s : SockAddrIn) : Codec.sockaddr.enc s = sockaddr s := by
  simp [Codec.sockaddr, sockaddr, le16_eq_le, le32_eq_le]

theorem revision_enc (r : UInt8 × UInt8) : Codec.revision.enc r = [r.1, r.2] := by
  simp [Codec.revision, Codec.pair, Codec.u8, le8_eq]

theorem IdentityItemData.writes (d : IdentityItemData) :
    Writes d.serialize (identity d (d.productName.take (d.productName.length % 256))) := by
  refine Writes.of_eq (Writes.bind (Writes.write16 _) (Writes.bind (Writes.writeBuffer _) (Writes.bind
    (Writes.write16 _) (Writes.bind (Writes.write16 _) (Writes.bind (Writes.write16 _) (Writes.bind
    (Writes.writeBuffer _) (Writes.bind (Writes.write16 _) (Writes.bind (Writes.write32 _) (Writes.bind
    (Writes.write8 _) (Writes.bind (Writes.writeBuffer _) (Writes.write8 _))))))))))) ?_
  have h1 : (UInt8.ofNat d.productName.length).toNat = d.productName.length % 256 := by simp
  have h2 : le8 (UInt8.ofNat d.productName.length)
      = le 1 (d.productName.take (d.productName.length % 256)).length := by
    rw [le8_eq_le, h1, List.length_take, Nat.min_eq_left (Nat.mod_le _ _)]
  simp only [identity, sockaddr_enc, revision_enc, h1, h2, le16_eq_le, le32_eq_le, le8_eq d.state,
    List.append_assoc]

theorem sockaddr_length (s : SockAddrIn) : (sockaddr s).length = 16 := by simp [sockaddr]

theorem identity_length (d : IdentityItemData) (name : Bytes) :
    (identity d name).length = 34 + name.length := by
  simp [identity, sockaddr_length]; omega

theorem IdentityItemData.encodes (d : IdentityItemData) (h : d.productName.length < 256) :
    Encodes d.obj (identity d d.productName) where
  writes := by
    have := d.writes
    rwa [Nat.mod_eq_of_lt h, List.take_length] at this
  length := by
    rw [identity_length]
    simp [IdentityItemData.obj, IdentityItemData.getLength]; omega

/-! ### Paths and messages -/

theorem Path.writesPad (p : Path) (pad : Bool) :
    Writes (p.serializePad pad) (le 1 (p.buf.length / 2) ++ (if pad then [0] else []) ++ p.buf) := by
  cases pad with
  | false =>
    refine Writes.of_eq (Writes.bind (Writes.write8 _) (Writes.bind Writes.nil (Writes.writeBuffer _))) ?_
    simp [le8_ofNat]
  | true =>
    refine Writes.of_eq (Writes.bind (Writes.write8 _) (Writes.bind (Writes.write8 _) (Writes.writeBuffer _))) ?_
    simp [le8_ofNat, le8_eq 0]

theorem Path.writes (p : Path) :
    Writes p.serialize (le 1 (p.buf.length / 2) ++ (if p.padAfterLength then [0] else []) ++ p.buf) :=
  p.writesPad _

theorem Path.getLength_eq (p : Path) :
    p.getLength = (le 1 (p.buf.length / 2) ++ (if p.padAfterLength then [0] else []) ++ p.buf).length := by
  cases h : p.padAfterLength <;> simp [Path.getLength, h] <;> omega

/-- The wire form of a path object. -/
def pathBytes (p : Path) : Bytes := le 1 (p.buf.length / 2) ++ (if p.padAfterLength then [0] else []) ++ p.buf

theorem MessageRouterRequest.encodes (r : MessageRouterRequest) {bs : Bytes} (h : EncodesOpt r.data bs) :
    Encodes r.obj (mrRequest r.service (pathBytes r.path) bs) where
  writes := by
    refine Writes.of_eq (Writes.bind (Writes.write8 _) (Writes.bind r.path.writes h.writes)) ?_
    simp [mrRequest, le8_eq, pathBytes]
  length := by
    simp only [MessageRouterRequest.obj, MessageRouterRequest.getLength, Path.getLength_eq, ← h.length, mrRequest,
      pathBytes, List.length_append, List.length_cons, List.length_nil]
    rfl

theorem rrData_eq (handle : UInt32) (timeout : UInt16) (body : Bytes) : rrData handle timeout body =
    le 4 handle.toNat ++ le 2 timeout.toNat ++ le 2 2 ++ le 2 0 ++ le 2 0 ++ le 2 0xB2 ++ le 2 body.length
      ++ body := by
  simp [rrData, cpf, item]

theorem RRData.writes (r : RRData) {o : Option Obj} {bs : Bytes} (h : EncodesOpt o bs) :
    Writes (r.serialize o) (rrData r.interfaceHandle r.timeout bs) := by
  have hi : ItemsEncode [CPFItem.null, ⟨itemUnconnectedMessage, o⟩] [[], bs] :=
    .cons rfl (.cons h .nil)
  refine Writes.of_eq (Writes.bind (Writes.write32 _) (Writes.bind (Writes.write16 _) (CPFPacket.writes hi))) ?_
  simp [rrData, le32_eq_le, le16_eq_le, cpfPairs, CPFItem.null, itemNull, itemUnconnectedMessage]

theorem rrData_length (handle : UInt32) (timeout : UInt16) (body : Bytes) :
    (rrData handle timeout body).length = 16 + body.length := by
  simp [rrData_eq]; omega

theorem RRDataRequest.encodes (r : RRDataRequest) {bs : Bytes} (h : EncodesOpt r.mr.data bs) :
    Encodes r.obj (rrData r.base.interfaceHandle r.base.timeout
      (mrRequest r.mr.service (pathBytes r.mr.path) bs)) where
  writes := r.base.writes (MessageRouterRequest.encodes r.mr h)
  length := by
    have := (MessageRouterRequest.encodes r.mr h).length
    simp only [RRDataRequest.obj, RRDataRequest.getLength, RRData.getLength, this, rrData_length]

theorem RRData.encodes (r : RRData) : Encodes r.obj (rrData r.interfaceHandle r.timeout []) where
  writes := r.writes (o := none) rfl
  length := by simp [RRData.obj, RRData.getLength, rrData_length]

/-- The wire form of a forward open request object. -/
def forwardOpenBytes (r : ForwardOpenRequest) : Bytes :=
  forwardOpen r.timeoutTickSize r.timeoutTicks r.oToTConnectionId r.tToOConnectionId r.connectionSn
    r.originatorVendorId r.originatorSn r.timeoutMultiplyer r.oToTRpi r.oToTConnParams r.tToORpi r.tToOConnParams
    r.connType (pathBytes r.path)

theorem ForwardOpenRequest.encodes (r : ForwardOpenRequest) : Encodes r.obj (forwardOpenBytes r) where
  writes := by
    refine Writes.of_eq (Writes.bind (Writes.write8 _) (Writes.bind (Writes.write8 _) (Writes.bind (Writes.write32 _)
      (Writes.bind (Writes.write32 _) (Writes.bind (Writes.write16 _) (Writes.bind (Writes.write16 _) (Writes.bind
      (Writes.write32 _) (Writes.bind (Writes.write8 _) (Writes.bind (Writes.write8 _) (Writes.bind (Writes.write8 _)
      (Writes.bind (Writes.write8 _) (Writes.bind (Writes.write32 _) (Writes.bind (Writes.write32 _) (Writes.bind
      (Writes.write32 _) (Writes.bind (Writes.write32 _) (Writes.bind (Writes.write8 _)
      r.path.writes)))))))))))))))) ?_
    simp [forwardOpenBytes, forwardOpen, pathBytes, le8_eq, le16_eq_le, le32_eq_le]
  length := by
    simp only [ForwardOpenRequest.obj, ForwardOpenRequest.getLength, Path.getLength_eq, forwardOpenBytes,
      forwardOpen, pathBytes, List.length_append, le_length, List.length_cons, List.length_nil]

theorem ForwardCloseRequest.writes (r : ForwardCloseRequest) :
    Writes r.serialize (forwardClose r.timeoutTickSize r.timeoutTicks r.connectionSn r.originatorVendorId
      r.originatorSn (le 1 (r.path.buf.length / 2) ++ [0] ++ r.path.buf)) := by
  refine Writes.of_eq (Writes.bind (Writes.write8 _) (Writes.bind (Writes.write8 _) (Writes.bind (Writes.write16 _)
    (Writes.bind (Writes.write16 _) (Writes.bind (Writes.write32 _) (r.path.writesPad true)))))) ?_
  simp [forwardClose, le8_eq, le16_eq_le, le32_eq_le]

theorem ForwardCloseRequest.encodes (r : ForwardCloseRequest) (h : r.path.padAfterLength = false) :
    Encodes r.obj (forwardClose r.timeoutTickSize r.timeoutTicks r.connectionSn r.originatorVendorId
      r.originatorSn (le 1 (r.path.buf.length / 2) ++ [0] ++ r.path.buf)) where
  writes := r.writes
  length := by
    simp [ForwardCloseRequest.obj, ForwardCloseRequest.getLength, Path.getLength, h, forwardClose]
    omega

theorem SequencedDataItem.encodes {o : Obj} {bs : Bytes} (h : Encodes o bs) (seq : UInt16) :
    Encodes (SequencedDataItem.obj o seq) (le 2 seq.toNat ++ bs) where
  writes := by
    refine Writes.of_eq (Writes.bind (Writes.write16 _) h.writes) ?_
    simp [le16_eq_le]
  length := by simp [SequencedDataItem.obj, h.length]

end Eip
