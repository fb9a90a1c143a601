import Verif.Spec.Cyclic
import Verif.Lemmas.Sized
import Verif.Props.IO
import Verif.Lemmas.Scanner
/-
C134: cyclic I/O data over a network that loses, repeats and reorders packets.
-/
namespace Eip
open Spec

/-- The items of a packet of a producer. -/
def ioItems (connection : UInt32) (k : Nat) (bs : Bytes) : List (UInt16 × Bytes) :=
  [(0x8002, seqAddress connection (UInt32.ofNat k)), (0xB1, le 2 (UInt16.ofNat k).toNat ++ bs)]

theorem ioPacket_items {o : Obj} {bs : Bytes} (ho : Encodes o bs) (connection : UInt32) (k : Nat) :
    ItemsAre (ioPacket connection k o).items (ioItems connection k bs) :=
  .cons ⟨rfl, SequencedAddressItem.encodes _⟩ (.cons ⟨rfl, SequencedDataItem.encodes ho _⟩ .nil)

theorem ioItems_ok {bs : Bytes} (h : bs.length < 65534) (connection : UInt32) (k : Nat) :
    CpfOk (ioItems connection k bs) := by
  refine ⟨by simp [ioItems], fun i hi => ?_⟩
  simp only [ioItems, List.mem_cons, List.not_mem_nil, or_false] at hi
  rcases hi with rfl | rfl
  · simp [seqAddress]
  · simp; omega

theorem ioItems_length (bs : Bytes) (connection : UInt32) (k : Nat) :
    (cpf (ioItems connection k bs)).length = 20 + bs.length := by
  simp [ioItems, cpf, seqAddress]
  omega

theorem sentAs_bytes {o : Obj} {bs bytes : Bytes} (ho : Encodes o bs) (h : bs.length < 65534) {connection : UInt32}
    {k : Nat} (sent : SentAs (ioPacket connection k o) bytes) : bytes = cpf (ioItems connection k bs) := by
  obtain ⟨w, w', s, run, tr⟩ := sent
  obtain ⟨w1, e, t, _⟩ := c60_sends w _ _ (ioPacket_items ho connection k) (ioItems_ok h connection k)
  rw [run] at e
  cases hf : (w.env w.clock).fails with
  | true => rw [hf] at e; cases e
  | false =>
    rw [hf] at e t
    cases e
    rw [tr] at t
    have := List.append_cancel_left t
    simp at this
    exact this.2

theorem readPacket_io {τ : Type} (cls : Class τ) (ha : cls.assignBuffer = none) (deleg : cls.deserializeLen = delegateLen)
    {fresh x : τ} {bs : Bytes} (hp : Parses cls.deserialize fresh bs () x)
    (connection : UInt32) (k : Nat) :
    readPacket cls fresh ⟨(ioItems connection k bs).map (fun i => ⟨i.1, rawData i.2⟩)⟩ =
      .ok (⟨connection, UInt32.ofNat k⟩, ⟨x, UInt16.ofNat k, false⟩) := by
  have hne : seqAddress connection (UInt32.ofNat k) ≠ [] := by
    intro e
    have := congrArg List.length e
    simp [seqAddress] at this
  have e1 : (⟨0x8002, rawData (seqAddress connection (UInt32.ofNat k))⟩ : CPFItem).getDataAs SequencedAddressItem.cls ⟨0, 0⟩ =
      (.ok (), ⟨connection, UInt32.ofNat k⟩) := by
    rw [getDataAs_raw SequencedAddressItem.cls rfl _ hne]
    have := (SequencedAddressItem.parses ⟨0, 0⟩ connection (UInt32.ofNat k) 0).buffer []
    rw [List.append_nil] at this
    have e2 : SequencedAddressItem.cls.runLen (seqAddress connection (UInt32.ofNat k)).length
        (⟨0, 0⟩, .buffer ⟨seqAddress connection (UInt32.ofNat k), 0⟩) =
        SequencedAddressItem.deserialize (⟨0, 0⟩, .buffer ⟨seqAddress connection (UInt32.ofNat k), 0⟩) := rfl
    simp only [deserializeFrom, BufferReader.new]
    rw [e2, this]
  have e3 : (⟨0xB1, rawData (le 2 (UInt16.ofNat k).toNat ++ bs)⟩ : CPFItem).getDataAs (SequencedDataItem.cls cls)
      (SequencedDataItem.new fresh) = (.ok (), ⟨x, UInt16.ofNat k, false⟩) := by
    have hne2 : le 2 (UInt16.ofNat k).toNat ++ bs ≠ [] := by
      intro e
      have := congrArg List.length e
      simp at this
    have ha2 : (SequencedDataItem.cls cls).assignBuffer = none := by
      show cls.assignBuffer.map _ = none
      rw [ha]; rfl
    rw [getDataAs_raw (SequencedDataItem.cls cls) ha2 _ hne2]
    have := ((c15_sequenced_item cls deleg fresh x (SerializableBuffer.obj ⟨bs⟩) bs (SerializableBuffer.encodes _) hp 0
      (UInt16.ofNat k) (le 2 (UInt16.ofNat k).toNat ++ bs).length).2.2 0).buffer []
    rw [List.append_nil] at this
    simp only [deserializeFrom, BufferReader.new, SequencedDataItem.new]
    rw [this]
  simp only [readPacket, ioItems, List.map_cons, List.map_nil]
  rw [e1]
  dsimp only
  rw [e3]

/-- C134. A producer sends the values `x 0`, `x 1`, … with `sendIOPacket`, each in a packet with its number. The
network delivers to a consumer any packets of these in any order: `pick i` is the number of the `i`-th packet that
arrives, so packets may be lost, repeated and reordered. Then the consumer reads from the `i`-th packet the connection
id, the number `pick i` and the value `x (pick i)`, provided that no value takes more than 4076 bytes. -/
theorem c134_stream_partial {τ : Type} (cls : Class τ) (ha : cls.assignBuffer = none)
    (deleg : cls.deserializeLen = delegateLen) (fresh : τ) (o : τ → Obj) (enc : τ → Bytes)
    (writes : ∀ x, Encodes (o x) (enc x)) (reads : ∀ x, Parses cls.deserialize fresh (enc x) () x)
    (connection : UInt32) (x : Nat → τ) (fits : ∀ k, (enc (x k)).length ≤ 4076)
    (bytes : Nat → Bytes) (sent : ∀ k, SentAs (ioPacket connection k (o (x k))) (bytes k))
    (pick : Nat → Nat) (n : Nat) (v : World)
    (arrives : ∀ i, i < n → (v.env (v.clock + i)).fails = false ∧ (v.env (v.clock + i)).data = bytes (pick i)) :
    consume cls fresh n v = .ok ((List.range n).map (fun i =>
      (⟨connection, UInt32.ofNat (pick i)⟩, ⟨x (pick i), UInt16.ofNat (pick i), false⟩))) := by
  induction n generalizing v pick with
  | zero => rfl
  | succ n ih =>
    obtain ⟨works, data⟩ := arrives 0 (Nat.succ_pos n)
    rw [Nat.add_zero] at works data
    have hl : (enc (x (pick 0))).length < 65534 := by have := fits (pick 0); omega
    have hb := sentAs_bytes (writes _) hl (sent (pick 0))
    have hd : delivered v.env v.clock = cpf (ioItems connection (pick 0) (enc (x (pick 0)))) := by
      rw [delivered, data, hb, List.take_of_length_le]
      rw [ioItems_length]; have := fits (pick 0); omega
    have e := receiveIO_eq v
    have hpar := (CPFPacket.parses _ (ioItems_ok hl connection (pick 0)).1 (ioItems_ok hl connection (pick 0)).2 ⟨[]⟩ 0).buffer []
    rw [List.append_nil] at hpar
    rw [works, hd, hpar] at e
    obtain ⟨v', e', henv, hclock⟩ : ∃ v', Session.receiveIOPacket v =
        (.ok ⟨(ioItems connection (pick 0) (enc (x (pick 0)))).map (fun i => ⟨i.1, rawData i.2⟩)⟩, v') ∧
        v'.env = v.env ∧ v'.clock = v.clock + 1 := ⟨_, e, rfl, rfl⟩
    have hr := readPacket_io cls ha deleg (reads (x (pick 0))) connection (pick 0)
    have := ih (fun i => pick (i + 1)) v' (fun i hi => by
      rw [henv, hclock, Nat.add_right_comm, Nat.add_assoc]
      exact arrives (i + 1) (Nat.succ_lt_succ hi))
    rw [consume, e']
    dsimp only
    rw [hr]
    dsimp only
    rw [this, List.range_succ_eq_map, List.map_cons, List.map_map]
    rfl

/-- Four-byte values from connection 7; packet 1 is lost, packet 0 arrives twice, and packet 3 before packet 2. -/
example : consume (SerializablePrimitive.cls .u32) ⟨0⟩ 4
    { answering [] with env := fun i => ⟨false, cpf (ioItems 7 ([0, 0, 3, 2].getD i 0) (le 4 (100 + [0, 0, 3, 2].getD i 0))), 0⟩ } =
    .ok [(⟨7, 0⟩, ⟨⟨100⟩, 0, false⟩), (⟨7, 0⟩, ⟨⟨100⟩, 0, false⟩), (⟨7, 3⟩, ⟨⟨103⟩, 3, false⟩), (⟨7, 2⟩, ⟨⟨102⟩, 2, false⟩)] := by
  decide +kernel

/-- The class of these values meets the hypotheses. -/
example : (SerializablePrimitive.cls Codec.u32).assignBuffer = none ∧
    (SerializablePrimitive.cls Codec.u32).deserializeLen = delegateLen ∧
    (∀ x : SerializablePrimitive UInt32, Encodes (SerializablePrimitive.obj .u32 x) (Codec.u32.enc x.data)) ∧
    (∀ x : SerializablePrimitive UInt32,
      Parses (SerializablePrimitive.cls Codec.u32).deserialize ⟨0⟩ (Codec.u32.enc x.data) () x) :=
  ⟨rfl, rfl, fun _ => SerializablePrimitive.encodes _ _, fun _ => SerializablePrimitive.parses Codec.u32_lawful _ _⟩

/-- C134. The number read tells the packets apart, and tells which was sent first, as long as fewer than 2³² have been
sent; the number in the data item does so among 65536. -/
theorem c134_recognised (i j : Nat) (hi : i < 4294967296) (hj : j < 4294967296) :
    (UInt32.ofNat i = UInt32.ofNat j ↔ i = j) ∧ (UInt32.ofNat i < UInt32.ofNat j ↔ i < j) ∧
    (UInt16.ofNat i = UInt16.ofNat j ↔ i % 65536 = j % 65536) := by
  have h1 : (UInt32.ofNat i).toNat = i := UInt32.toNat_ofNat_of_lt' hi
  have h2 : (UInt32.ofNat j).toNat = j := UInt32.toNat_ofNat_of_lt' hj
  refine ⟨?_, ?_, ?_⟩
  · rw [← UInt32.toNat_inj, h1, h2]
  · rw [UInt32.lt_iff_toNat_lt, h1, h2]
  · rw [← UInt16.toNat_inj]
    simp [UInt16.toNat_ofNat']

/-- C134 is violated: a value of more than 4076 bytes is sent, but the consumer gets a `length_error`. -/
theorem c134_violated {τ : Type} (cls : Class τ) (fresh : τ) (o : Obj) (bs : Bytes) (writes : Encodes o bs)
    (big : 4076 < bs.length) (small : bs.length < 65534) (connection : UInt32) (k : Nat) :
    (∃ bytes, SentAs (ioPacket connection k o) bytes) ∧
    ∀ bytes, SentAs (ioPacket connection k o) bytes → ∀ v : World, (v.env v.clock).fails = false →
      (v.env v.clock).data = bytes → ∀ n, ∃ what, consume cls fresh (n + 1) v = .throw (lengthError what) := by
  refine ⟨?_, fun bytes sent v works data n => ?_⟩
  · obtain ⟨w1, e, t, _⟩ := c60_sends (answering []) _ _ (ioPacket_items writes connection k) (ioItems_ok small connection k)
    exact ⟨_, _, w1, .io, e, t⟩
  · have hb := sentAs_bytes writes small sent
    have hlen := ioItems_length bs connection k
    have hsplit : cpf (ioItems connection k bs) = delivered v.env v.clock ++ (cpf (ioItems connection k bs)).drop 4096 := by
      rw [delivered, data, hb, List.take_append_drop]
    have hne : (cpf (ioItems connection k bs)).drop 4096 ≠ [] := by
      intro h
      have := congrArg List.length h
      rw [List.length_drop, hlen, List.length_nil] at this
      omega
    have ok := ioItems_ok small connection k
    obtain ⟨what, d1, r1, e'⟩ := (CPFPacket.parses _ ok.1 ok.2 ⟨[]⟩ 0).short _ _ hsplit hne
    have e2 := receiveIO_eq v
    rw [works, e'] at e2
    refine ⟨what, ?_⟩
    rw [consume]
    obtain ⟨v', e3⟩ : ∃ v', Session.receiveIOPacket v = (.throw (lengthError what), v') := ⟨_, e2⟩
    rw [e3]

end Eip
