import Verif.Lemmas.Within
import Verif.Lemmas.Layout
import Verif.Lemmas.Buffer
import Verif.Lemmas.Memory
import Verif.Props.Commands
import Verif.Props.Wire
/-
C59, C67: the memory behind parsed objects.
-/
namespace Eip
open Spec

/-! ### C59 -/

/-- The world after a successful receive on the IO socket. -/
def afterReceive (w : World) : World :=
  w.logS [.received .io (delivered w.env w.clock) true] (w.s.receiveInto (delivered w.env w.clock))

theorem receiveIORefs_eq (w : World) : Session.receiveIORefs w =
    if (w.env w.clock).fails then (.throw systemError, w.log [.received .io (delivered w.env w.clock) false])
    else match PacketRef.deserialize (⟨[]⟩, ⟨(afterReceive w).s.recvBuffer, ⟨0, (delivered w.env w.clock).length⟩, 0⟩) with
      | (.ok (), (p, _)) => (.ok p, afterReceive w)
      | (.throw e, _) => (.throw e, afterReceive w)
      | (.ub u, _) => (.ub u, afterReceive w) := by
  rw [Session.receiveIORefs]
  have e := sockReceive_eq .io w
  by_cases h : (w.env w.clock).fails = true
  · rw [if_pos h] at e
    rw [if_pos h, Prog.bind_throw e]
    rfl
  · rw [if_neg h] at e
    rw [if_neg h, Prog.bind_ok e]
    have hb : afterReceive w = { w.after (.received .io (delivered w.env w.clock) true) with
        s := w.s.receiveInto (delivered w.env w.clock) } := rfl
    rw [hb]
    generalize ({ w.after (.received .io (delivered w.env w.clock) true) with
        s := w.s.receiveInto (delivered w.env w.clock) } : World) = w1
    simp only [Prog.bind_def, Prog.andThen, Prog.get, Session.onLocal]
    generalize PacketRef.deserialize _ = res
    obtain ⟨(_ | _ | _), _, _⟩ := res <;> rfl

theorem received_bytes (w : World) :
    (Slice.mk 0 (delivered w.env w.clock).length).bytes (afterReceive w).s.recvBuffer = delivered w.env w.clock := by
  simp [Slice.bytes, afterReceive, World.logS, Session.receiveInto]

theorem received_range (w : World) :
    (delivered w.env w.clock).length ≤ (afterReceive w).s.recvBuffer.length := by
  simp [afterReceive, World.logS, Session.receiveInto]

/-- The two views of `receiveIOPacket` agree: the packet of the value-level model is what the references of the
returned packet refer to at the time of return. -/
theorem c59_refines (w : World) : Session.receiveIOPacket w =
    ((Session.receiveIORefs w).1.map (PacketRef.value (Session.receiveIORefs w).2.s.recvBuffer),
      (Session.receiveIORefs w).2) := by
  rw [receiveIO_eq, receiveIORefs_eq]
  by_cases h : (w.env w.clock).fails = true
  · rw [if_pos h, if_pos h]; rfl
  rw [if_neg h, if_neg h]
  have hs := (PacketRef.sim (afterReceive w).s.recvBuffer ⟨[]⟩
    ⟨(afterReceive w).s.recvBuffer, ⟨0, (delivered w.env w.clock).length⟩, 0⟩ rfl
    (by simpa [RefReader.InRange] using received_range w)).1
  simp only [RefReader.value, received_bytes] at hs
  have hv : PacketRef.value (afterReceive w).s.recvBuffer ⟨[]⟩ = ⟨[]⟩ := rfl
  rw [hv] at hs
  rw [hs]
  generalize PacketRef.deserialize _ = res
  obtain ⟨(_ | _ | _), _, _⟩ := res <;> rfl

/-- Where the items of a received packet lie in the receive buffer depends only on their types and lengths. -/
theorem received_layout (w : World) (works : (w.env w.clock).fails = false) (l : List (UInt16 × Bytes)) (ok : CpfOk l)
    (tail : Bytes) (h : delivered w.env w.clock = cpf l ++ tail) :
    Session.receiveIORefs w = (.ok ⟨layout 2 (shape l)⟩, afterReceive w) := by
  have e := receiveIORefs_eq w
  have hp := PacketRef.parses l ok 0 ⟨[]⟩
    ⟨(afterReceive w).s.recvBuffer, ⟨0, (delivered w.env w.clock).length⟩, 0⟩ tail rfl
    (by simpa using received_range w) (by rw [received_bytes]; exact h)
  rw [works, hp] at e
  exact e

theorem received_value (w : World) (works : (w.env w.clock).fails = false) (l : List (UInt16 × Bytes)) (ok : CpfOk l)
    (tail : Bytes) (h : delivered w.env w.clock = cpf l ++ tail) :
    Session.receiveIOPacket w = (.ok ⟨l.map (fun i => ⟨i.1, rawData i.2⟩)⟩, afterReceive w) := by
  have e := receiveIO_eq w
  rw [works, h, (CPFPacket.parses l ok.1 ok.2 ⟨[]⟩ 0).buffer tail] at e
  rw [e, afterReceive, h]
  rfl

/-- C59 does not hold: let a packet with the items `l1` be received, and later another datagram whose items `l2` have the
same types and lengths. The packet that was returned first then has the contents of the second one. -/
theorem c59_violated (w : World) (l1 l2 : List (UInt16 × Bytes)) (ok1 : CpfOk l1) (ok2 : CpfOk l2)
    (same : shape l2 = shape l1) (t1 t2 : Bytes)
    (works1 : (w.env w.clock).fails = false) (h1 : delivered w.env w.clock = cpf l1 ++ t1)
    (works2 : (w.env (w.clock + 1)).fails = false) (h2 : delivered w.env (w.clock + 1) = cpf l2 ++ t2) :
    ∃ p w1 w2, Session.receiveIORefs w = (.ok p, w1) ∧ runOps [.receiveIOPacket] w1 = (w2, true) ∧
      p.value w1.s.recvBuffer = ⟨l1.map (fun i => ⟨i.1, rawData i.2⟩)⟩ ∧
      p.value w2.s.recvBuffer = ⟨l2.map (fun i => ⟨i.1, rawData i.2⟩)⟩ := by
  have r1 := received_layout w works1 l1 ok1 t1 h1
  have v1 := received_value w works1 l1 ok1 t1 h1
  have r2 := received_layout (afterReceive w) works2 l2 ok2 t2 h2
  have v2 := received_value (afterReceive w) works2 l2 ok2 t2 h2
  refine ⟨⟨layout 2 (shape l1)⟩, afterReceive w, afterReceive (afterReceive w), r1, ?_, ?_, ?_⟩
  · have : Op.run .receiveIOPacket (afterReceive w) = (.ok (), afterReceive (afterReceive w)) := by
      show (Session.receiveIOPacket).forget _ = _
      rw [forget_eq, v2]
    simp only [runOps, this]
  · have := c59_refines w
    rw [v1, r1] at this
    simp only [Res.map, Prod.mk.injEq, Res.ok.injEq] at this
    exact this.1.symm
  · have := c59_refines (afterReceive w)
    rw [v2, r2, same] at this
    simp only [Res.map, Prod.mk.injEq, Res.ok.injEq] at this
    exact this.1.symm

/-- Two IO datagrams with one data item of two bytes each. -/
example : CpfOk [(0xB1, [1, 2])] ∧ CpfOk [(0xB1, [7, 8])] ∧
    shape [((0xB1 : UInt16), ([7, 8] : Bytes))] = shape [((0xB1 : UInt16), ([1, 2] : Bytes))] ∧
    delivered (answering (cpf [(0xB1, [1, 2])])).env 0 = cpf [(0xB1, [1, 2])] ++ [] :=
  ⟨⟨by decide, by simp⟩, ⟨by decide, by simp⟩, rfl, by decide +kernel⟩

/-- What a received packet contains after any history of calls: the receive buffer as overwritten by everything that
was received on either socket since, and nothing else changes it. -/
theorem c59_contents (p : PacketRef) (w : World) (ops : List Op) :
    ∃ evs, (runOps ops w).1.trace = w.trace ++ evs ∧
      p.value (runOps ops w).1.s.recvBuffer = p.value (evs.foldl overwrite w.s.recvBuffer) := by
  obtain ⟨evs, h1, h2⟩ := runOps_tracks ops w
  exact ⟨evs, h1, by rw [h2]⟩

theorem overwrite_none (evs : List Ev) (buf : Bytes) (h : ∀ s data, .received s data true ∉ evs) :
    evs.foldl overwrite buf = buf := by
  induction evs generalizing buf with
  | nil => rfl
  | cons ev evs ih =>
    have : overwrite buf ev = buf := by
      cases ev with
      | received s data ok =>
        cases ok with
        | false => rfl
        | true => exact absurd List.mem_cons_self (h s data)
      | _ => rfl
    rw [List.foldl_cons, this]
    exact ih buf (fun s d hm => h s d (List.mem_cons_of_mem _ hm))

/-- C59, as far as it holds: a packet that was received keeps its contents during any history of calls in which nothing
is successfully received on either socket. What is missing: histories with receives, for which it is false. -/
theorem c59_no_receive_partial (w w1 : World) (p : PacketRef) (run : Session.receiveIORefs w = (.ok p, w1)) (ops : List Op)
    (evs : List Ev) (new : (runOps ops w1).1.trace = w1.trace ++ evs) (quiet : ∀ s data, .received s data true ∉ evs) :
    Session.receiveIOPacket w = (.ok (p.value (runOps ops w1).1.s.recvBuffer), w1) := by
  obtain ⟨evs', h1, h2⟩ := runOps_tracks ops w1
  rw [new] at h1
  have := List.append_cancel_left h1
  subst this
  rw [overwrite_none evs _ quiet] at h2
  rw [h2, c59_refines, run]
  rfl

/-- Sending packets receives nothing. -/
example : ∃ ops evs, ops ≠ [] ∧ (runOps ops (answering [])).1.trace = (answering []).trace ++ evs ∧
    ∀ s data, .received s data true ∉ evs :=
  ⟨[.sendIOPacket ⟨[]⟩], [.sent .io [0, 0] true], by simp, by decide +kernel, by simp⟩

/-! ### C67 -/

theorem freed_dangles {h : Heap} {b : Nat} (hb : h.blocks[b]? = some none) {δ : Type} (d : δ) (s : Slice) (hs : s.len ≠ 0) :
    Located.read ⟨b, d⟩ s h = (.ub .danglingAccess, h) := by
  simp [Located.read, Heap.load, Heap.contents, hs, hb]

/-- `copy_serializable` from anything but a raw buffer: the vector is allocated, parsed and freed. -/
theorem copy_structured {δ : Type} (parse : Nat → Prog (δ × RefReader) Unit) (init : δ) (o : Obj) (h : Heap)
    (w : BufferWriter) (e : o.serialize (.buffer (BufferWriter.new (List.replicate o.getLength 0))) = (.ok (), .buffer w)) :
    copyLocated parse init (.structured o) h =
      match parse o.getLength (init, ⟨w.memory, ⟨0, w.memory.length⟩, 0⟩) with
      | (.ok (), (d, _)) => (.ok ⟨h.blocks.length, d⟩, ⟨h.blocks ++ [none]⟩)
      | (.throw e, _) => (.throw e, ⟨h.blocks ++ [none]⟩)
      | (.ub u, _) => (.ub u, ⟨h.blocks ++ [none]⟩) := by
  have hf : Heap.free h.blocks.length ⟨h.blocks ++ [some w.memory]⟩ = (.ok (), ⟨h.blocks ++ [none]⟩) := by
    simp [Heap.free]
  simp only [copyLocated, e, Heap.alloc, hf]
  generalize parse o.getLength (init, ⟨w.memory, ⟨0, w.memory.length⟩, 0⟩) = res
  obtain ⟨(_ | _ | _), d, r⟩ := res <;> rfl

/-- C67 does not hold: whatever is copied into whatever class, if the source is anything but a raw buffer, every
non-empty reference in the resulting object is to freed memory. -/
theorem c67_violated_everywhere {δ : Type} (parse : Nat → Prog (δ × RefReader) Unit) (init : δ) (o : Obj) (h h' : Heap)
    (l : Located δ) (run : copyLocated parse init (.structured o) h = (.ok l, h')) (s : Slice) (hs : s.len ≠ 0) :
    l.read s h' = (.ub .danglingAccess, h') := by
  rcases hres : o.serialize (.buffer (BufferWriter.new (List.replicate o.getLength 0))) with ⟨(_ | _ | _), (w | w)⟩
  · rw [copy_structured parse init o h w hres] at run
    generalize parse o.getLength (init, ⟨w.memory, ⟨0, w.memory.length⟩, 0⟩) = res at run
    obtain ⟨(_ | _ | _), d, r⟩ := res
    · simp only [Prod.mk.injEq, Res.ok.injEq] at run
      obtain ⟨rfl, rfl⟩ := run
      exact freed_dangles (by simp) d s hs
    · simp at run
    · simp at run
  all_goals
    simp only [copyLocated, hres] at run
    simp at run

theorem layout_ne {off : Nat} {l : List (UInt16 × Nat)} : ∀ i ∈ layout off l, ∀ s, i.data = some s → s.len ≠ 0 := by
  induction l generalizing off with
  | nil => intro i hi; cases hi
  | cons a l ih =>
    intro i hi s hs
    rcases List.mem_cons.1 hi with rfl | hi
    · by_cases h : a.2 = 0
      · simp [h] at hs
      · simp only [h, if_false, Option.some.injEq] at hs
        subst hs
        exact h
    · exact ih i hi s hs

theorem layout_lengths (off : Nat) (l : List (UInt16 × Bytes)) :
    (layout off (shape l)).map (fun i => (i.itemType, i.data.map (·.len))) =
      l.map (fun i => (i.1, if i.2.length = 0 then none else some i.2.length)) := by
  induction l generalizing off with
  | nil => rfl
  | cons a l ih =>
    have := ih (off + 4 + a.2.length)
    simp only [shape, List.map_cons, layout, List.cons.injEq] at this ⊢
    refine ⟨?_, this⟩
    by_cases h : a.2.length = 0 <;> simp [h]

/-- C67 does not hold, and nothing reports it: copying any common packet format packet into a `CPFPacket` succeeds, with
a reference for every item that has data, and each of them is to freed memory. -/
theorem c67_violated (o : Obj) (l : List (UInt16 × Bytes)) (ok : CpfOk l) (ho : Encodes o (cpf l)) (h : Heap) :
    ∃ p h', copyLocated (fun _ => PacketRef.deserialize) ⟨[]⟩ (.structured o) h = (.ok p, h') ∧
      p.obj.items.map (fun i => (i.itemType, i.data.map (·.len))) =
        l.map (fun i => (i.1, if i.2.length = 0 then none else some i.2.length)) ∧
      ∀ s ∈ p.obj.slices, p.read s h' = (.ub .danglingAccess, h') := by
  have hw := ho.writes.fits (BufferWriter.new (List.replicate o.getLength 0)) (by simp [BufferWriter.new, ho.length])
  have e := copy_structured (fun _ => PacketRef.deserialize) ⟨[]⟩ o h _ hw
  have hm : (BufferWriter.mk ((BufferWriter.new (List.replicate o.getLength 0)).written ++ cpf l)
      ((BufferWriter.new (List.replicate o.getLength 0)).rest.drop (cpf l).length)
      ((BufferWriter.new (List.replicate o.getLength 0)).byteCount + (cpf l).length)).memory = cpf l := by
    simp [BufferWriter.new, BufferWriter.memory, ho.length]
  rw [hm, PacketRef.parses l ok 0 ⟨[]⟩ ⟨cpf l, ⟨0, (cpf l).length⟩, 0⟩ [] rfl (by simp) (by simp [Slice.bytes])] at e
  refine ⟨_, _, e, layout_lengths 2 l, fun s hs => freed_dangles (by simp) _ s ?_⟩
  obtain ⟨i, hi, hs⟩ := List.mem_filterMap.1 hs
  exact layout_ne i hi s hs

/-- A packet with an item of two bytes. -/
example : ∃ (o : Obj) (l : List (UInt16 × Bytes)), CpfOk l ∧ Encodes o (cpf l) ∧ ∃ i ∈ l, i.2.length ≠ 0 :=
  ⟨CPFPacket.obj ⟨[⟨0xB1, some (SerializableBuffer.obj ⟨[7, 8]⟩)⟩]⟩, [(0xB1, [7, 8])], ⟨by decide, by simp⟩,
    c05_true_length_partial _ _ (.cons ⟨rfl, SerializableBuffer.encodes _⟩ .nil) (by simp), _, List.mem_singleton.2 rfl, by simp⟩

/-- The common part of the following: parsing in place from live memory. -/
theorem copy_raw {δ δ' : Type} {parse : Nat → Prog (δ' × RefReader) Unit} {pv : Nat → Prog (δ × Reader) Unit} {init : δ'}
    {V : Bytes → δ' → δ} {slices : δ' → List Slice} (sim : ∀ mem n, Sim mem (V mem) id (pv n) (parse n))
    (bounded : ∀ mem n, Bounded mem (fun d => ∀ s ∈ slices d, s.Within mem) (fun _ => True) (parse n))
    (hi : slices init = []) {h h' : Heap} {sb : SBuf} {mem : Bytes} {l : Located δ'}
    (live : h.blocks[sb.data.block]? = some (some mem)) (range : sb.data.off + sb.data.len ≤ mem.length)
    (run : copyLocated parse init (.raw sb) h = (.ok l, h')) :
    h' = h ∧ (∃ rd, pv sb.data.len (V mem init, .buffer ⟨(mem.drop sb.data.off).take sb.data.len, 0⟩) =
        (.ok (), (V mem l.obj, rd))) ∧
      ∀ s ∈ slices l.obj, ∀ (later : Heap) (mem' : Bytes), later.blocks[sb.data.block]? = some (some mem') →
        mem'.length = mem.length → l.read s later = (.ok (s.bytes mem'), later) := by
  have hb : h.bytes sb.data.block = mem := by simp [Heap.bytes, live]
  have hc : (h.contents sb.data).isSome := by
    simp only [Heap.contents, live]
    split
    · rfl
    · simp
  obtain ⟨bs, hc⟩ := Option.isSome_iff_exists.1 hc
  simp only [copyLocated, hc, hb] at run
  have hs := (sim mem sb.data.len init ⟨mem, ⟨sb.data.off, sb.data.len⟩, 0⟩ rfl range).1
  obtain ⟨-, -, hw, -⟩ := bounded mem sb.data.len init ⟨mem, ⟨sb.data.off, sb.data.len⟩, 0⟩ rfl range (by simp [hi])
  generalize parse sb.data.len (init, ⟨mem, ⟨sb.data.off, sb.data.len⟩, 0⟩) = res at run hs hw
  obtain ⟨(_ | _ | _), d, r⟩ := res
  · simp only [Prod.mk.injEq, Res.ok.injEq] at run
    obtain ⟨rfl, rfl⟩ := run
    refine ⟨rfl, ⟨_, hs⟩, fun s hm later mem' hl hlen => ?_⟩
    have := hw s hm
    simp only [Slice.Within] at this
    simp only [Located.read, Heap.load, Heap.contents, hl]
    by_cases hz : s.len = 0
    · simp [hz, Slice.bytes]
    · rw [if_neg hz, if_pos (by omega)]
      rfl
  · simp at run
  · simp at run

/-- C67, as far as it holds, for `CPFPacket`: parsed from a raw buffer on live memory, the packet is what the value-level
model says, and each of its references can be read, and yields what the memory contains then, for as long as that memory
is live. What is missing: sources other than raw buffers, for which it is false. -/
theorem c67_packet_partial (h h' : Heap) (sb : SBuf) (mem : Bytes) (live : h.blocks[sb.data.block]? = some (some mem))
    (range : sb.data.off + sb.data.len ≤ mem.length) (p : Located PacketRef)
    (run : copyLocated (fun _ => PacketRef.deserialize) ⟨[]⟩ (.raw sb) h = (.ok p, h')) :
    h' = h ∧ (∃ rd, CPFPacket.deserialize (⟨[]⟩, .buffer ⟨(mem.drop sb.data.off).take sb.data.len, 0⟩) =
        (.ok (), (p.obj.value mem, rd))) ∧
      ∀ s ∈ p.obj.slices, ∀ (later : Heap) (mem' : Bytes), later.blocks[sb.data.block]? = some (some mem') →
        mem'.length = mem.length → p.read s later = (.ok (s.bytes mem'), later) :=
  copy_raw (pv := fun _ => CPFPacket.deserialize) (fun mem _ => PacketRef.sim mem) (fun mem _ => PacketRef.bounded mem) rfl
    live range run

/-- C67, as far as it holds, for `EncapPacket`. What is missing is as in `c67_packet_partial`. -/
theorem c67_encap_partial (h h' : Heap) (sb : SBuf) (mem : Bytes) (live : h.blocks[sb.data.block]? = some (some mem))
    (range : sb.data.off + sb.data.len ≤ mem.length) (header : EncapHeader) (p : Located EncapRef)
    (run : copyLocated EncapRef.deserializeSized ⟨header, none⟩ (.raw sb) h = (.ok p, h')) :
    h' = h ∧ (∃ rd, EncapPacket.deserializeSized sb.data.len
        (⟨header, none⟩, .buffer ⟨(mem.drop sb.data.off).take sb.data.len, 0⟩) = (.ok (), (p.obj.value mem, rd))) ∧
      ∀ s ∈ p.obj.slices, ∀ (later : Heap) (mem' : Bytes), later.blocks[sb.data.block]? = some (some mem') →
        mem'.length = mem.length → p.read s later = (.ok (s.bytes mem'), later) :=
  copy_raw EncapRef.sim EncapRef.bounded rfl live range run

/-- C67, as far as it holds, for `MessageRouterResponse`. What is missing is as in `c67_packet_partial`. -/
theorem c67_response_partial (h h' : Heap) (sb : SBuf) (mem : Bytes) (live : h.blocks[sb.data.block]? = some (some mem))
    (range : sb.data.off + sb.data.len ≤ mem.length) (service status : UInt8) (p : Located ResponseRef)
    (run : copyLocated ResponseRef.deserializeSized ⟨service, status, none, none⟩ (.raw sb) h = (.ok p, h')) :
    h' = h ∧ (∃ rd, MessageRouterResponse.deserializeSized sb.data.len
        (⟨service, status, none, none⟩, .buffer ⟨(mem.drop sb.data.off).take sb.data.len, 0⟩) =
          (.ok (), (p.obj.value mem, rd))) ∧
      ∀ s ∈ p.obj.slices, ∀ (later : Heap) (mem' : Bytes), later.blocks[sb.data.block]? = some (some mem') →
        mem'.length = mem.length → p.read s later = (.ok (s.bytes mem'), later) :=
  copy_raw (V := ResponseRef.value) (slices := ResponseRef.slices) (init := ⟨service, status, none, none⟩)
    (pv := MessageRouterResponse.deserializeSized) (parse := ResponseRef.deserializeSized)
    ResponseRef.sim ResponseRef.bounded rfl live range run

/-- The object in a normal return. -/
def locatedObj {δ : Type} : Res (Located δ) → Option (Nat × δ)
  | .ok l => some (l.block, l.obj)
  | _ => none

/-- A packet in the middle of a block of memory, with a reference to the data of its item. -/
example : locatedObj (copyLocated (fun _ => PacketRef.deserialize) ⟨[]⟩ (.raw ⟨⟨0, 1, 8⟩, none⟩)
    ⟨[some [9, 1, 0, 0xB1, 0, 2, 0, 7, 8, 9]]⟩).1 = some (0, ⟨[⟨0xB1, some ⟨7, 2⟩⟩]⟩) := by decide +kernel

end Eip
