import Verif.Lemmas.Sharing
import Verif.Props.Robust
/-
C120: packets that share their payloads.
-/
namespace Eip
open Spec

/-- C120, as far as it holds: in every program, a step that does not change an object itself leaves every object that exists,
every encapsulation packet and every CPF packet other than the one it works on exactly as they were, also those that share
objects with it. What is missing: nothing for these steps; see `c120_violated` for changes of an object. -/
theorem c120_others_partial (ops : List ShareOp) (op : ShareOp) (legal : LegalRun (ops ++ [op]) Store.empty)
    (hc : ∀ i o, op ≠ .change i o) :
    (∃ new, (op.run (runShare ops Store.empty)).2.objs = (runShare ops Store.empty).objs ++ new) ∧
    (∀ y p, packetTarget op ≠ some y → packetOf (runShare ops Store.empty) y = some p →
      packetOf (op.run (runShare ops Store.empty)).2 y = some p) ∧
    (∀ y p, cpfTarget op ≠ some y → cpfOf (runShare ops Store.empty) y = some p →
      cpfOf (op.run (runShare ops Store.empty)).2 y = some p) := by
  obtain ⟨l1, l2, _⟩ := legalRun_append legal
  have ok := runShare_ok empty_ok l1
  obtain ⟨ok', ⟨new, e⟩, hp, hq⟩ := share_step ok l2 hc
  refine ⟨⟨new, e⟩, fun y p ht h => ?_, fun y p ht h => ?_⟩
  · obtain ⟨q, h1, rfl⟩ := packetOf_some h
    rw [packetOf, hp y q ht h1, e]
    simp only [Option.map_some, look_append (packet_ptr ok h1)]
  · obtain ⟨l, h1, rfl⟩ := cpfOf_some h
    rw [cpfOf, hq y l ht h1, e]
    simp only [Option.map_some, Option.some.injEq]
    exact lookCPF_append (ok.2 l (List.mem_of_getElem? h1))

/-- C120, as far as it holds: sharing makes no difference for the packet a function is called on. In every program, each
function has the result and the effect on its packet that it has on a packet that shares nothing. -/
theorem c120_as_alone_partial (ops : List ShareOp) (legal : LegalRun ops Store.empty) (m : Store)
    (now : m = runShare ops Store.empty) (x : Nat) :
    (∀ p, packetOf m x = some p →
      (∀ ptr, Points m ptr → packetOf ((ShareOp.setPayload x ptr).run m).2 x = some (p.setPayload (pointee m.objs ptr))) ∧
      packetOf ((ShareOp.updateLength x).run m).2 x = some p.updateLength ∧
      packetOf ((ShareOp.copyPacket x).run m).2 m.packets.length = some p ∧
      (∀ y q, packetOf m y = some q → packetOf ((ShareOp.assignPacket x y).run m).2 x = some q) ∧
      (∀ input, ((ShareOp.parse x input).run m).1 = (EncapPacket.deserialize (p, .buffer (.new input))).1 ∧
        packetOf ((ShareOp.parse x input).run m).2 x = some (EncapPacket.deserialize (p, .buffer (.new input))).2.1) ∧
      (∀ n input, ((ShareOp.parseSized x n input).run m).1 = (EncapPacket.deserializeSized n (p, .buffer (.new input))).1 ∧
        packetOf ((ShareOp.parseSized x n input).run m).2 x =
          some (EncapPacket.deserializeSized n (p, .buffer (.new input))).2.1)) ∧
    (∀ p, cpfOf m x = some p →
      cpfOf ((ShareOp.copyCPF x).run m).2 m.cpfs.length = some p ∧
      (∀ y q, cpfOf m y = some q → cpfOf ((ShareOp.assignCPF x y).run m).2 x = some q) ∧
      (∀ input, ((ShareOp.parseCPF x input).run m).1 = (CPFPacket.deserialize (p, .buffer (.new input))).1 ∧
        cpfOf ((ShareOp.parseCPF x input).run m).2 x = some (CPFPacket.deserialize (p, .buffer (.new input))).2.1)) := by
  subst now
  generalize hm : runShare ops Store.empty = m
  have ok : StoreOk m := hm ▸ runShare_ok empty_ok legal
  refine ⟨fun p h => ?_, fun p h => ?_⟩
  · obtain ⟨q, hq, rfl⟩ := packetOf_some h
    have hx := (List.getElem?_eq_some_iff.mp hq).1
    refine ⟨fun ptr _ => ?_, ?_, ?_, fun y q' hy => ?_, fun input => ?_, fun n input => ?_⟩
    · exact (onPacket_at hq).2
    · exact (onPacket_at hq).2
    · simp only [ShareOp.run, hq, Store.addPacket, Prog.modify, packetOf]
      simp
    · obtain ⟨q2, hq2, rfl⟩ := packetOf_some hy
      simp only [ShareOp.run, hq2]
      exact (onPacket_at hq).2
    · obtain ⟨a', new, e, l, _⟩ := SharedPacket.deserialize_sim (r := .buffer (BufferReader.new input)) (packet_ptr ok hq)
      obtain ⟨h1, h2⟩ := onPacket_at (f := fun p objs =>
        match SharedPacket.deserialize ((p, objs), .buffer (BufferReader.new input)) with
        | (r, ((p', objs'), _)) => (r, p', objs')) hq
      rw [e] at h1 h2
      refine ⟨h1, ?_⟩
      rw [← l]
      exact h2
    · obtain ⟨a', new, e, l, _⟩ := SharedPacket.deserializeSized_sim n (r := .buffer (BufferReader.new input)) (packet_ptr ok hq)
      obtain ⟨h1, h2⟩ := onPacket_at (f := fun p objs =>
        match SharedPacket.deserializeSized n ((p, objs), .buffer (BufferReader.new input)) with
        | (r, ((p', objs'), _)) => (r, p', objs')) hq
      rw [e] at h1 h2
      refine ⟨h1, ?_⟩
      rw [← l]
      exact h2
  · obtain ⟨q, hq, rfl⟩ := cpfOf_some h
    refine ⟨?_, fun y q' hy => ?_, fun input => ?_⟩
    · simp only [ShareOp.run, hq, Store.addCPF, Prog.modify, cpfOf]
      simp
    · obtain ⟨q2, hq2, rfl⟩ := cpfOf_some hy
      simp only [ShareOp.run, hq2]
      exact (onCPF_at hq).2
    · obtain ⟨a', new, e, l, _⟩ := SharedItem.packet_sim (l := q) (objs := m.objs) (r := .buffer (BufferReader.new input))
      obtain ⟨h1, h2⟩ := onCPF_at (f := fun p objs =>
        match SharedItem.deserializePacket ((p, objs), .buffer (BufferReader.new input)) with
        | (r, ((p', objs'), _)) => (r, p', objs')) hq
      rw [e] at h1 h2
      refine ⟨h1, ?_⟩
      rw [← l]
      exact h2

/-- C120, as far as it holds: what constructors and direct assignments make. Whatever exists already, new objects and packets get the
contents they are constructed with, and a packet gets the header or the items assigned to it and keeps the rest. -/
theorem c120_made_partial (m : Store) :
    (∀ o, ((ShareOp.make o).run m).2 = { m with objs := m.objs ++ [o] }) ∧
    (∀ command handle, packetOf ((ShareOp.newPacket command handle).run m).2 m.packets.length =
      some ⟨⟨command, 0, handle, 0, (0, 0), 0⟩, none⟩) ∧
    (∀ command handle ptr, Points m ptr →
      packetOf ((ShareOp.newPacketWith command handle ptr).run m).2 m.packets.length =
        some (EncapPacket.withPayload command handle (ptr.bind (m.objs[·]?)))) ∧
    (∀ x p h, packetOf m x = some p → packetOf ((ShareOp.setHeader x h).run m).2 x = some ⟨h, p.payload⟩) ∧
    cpfOf (ShareOp.newCPF.run m).2 m.cpfs.length = some ⟨[]⟩ ∧
    (∀ x p l, cpfOf m x = some p → (∀ i ∈ l, Points m i.data) →
      cpfOf ((ShareOp.setItems x l).run m).2 x = some ⟨l.map (fun i => ⟨i.itemType, i.data.bind (m.objs[·]?)⟩)⟩) := by
  refine ⟨fun o => rfl, fun c h => ?_, fun c h ptr _ => ?_, fun x p h hp => ?_, ?_, fun x p l hp _ => ?_⟩
  · simp [ShareOp.run, Store.addPacket, Prog.modify, packetOf, SharedPacket.look, pointee, EncapHeader.new]
  · simp only [ShareOp.run, Store.addPacket, Prog.modify, packetOf]
    rw [List.getElem?_append_right (Nat.le_refl _), Nat.sub_self]
    show some (SharedPacket.look m.objs (SharedPacket.updateLength m.objs _)) = _
    rw [look_updateLength]
    rfl
  · obtain ⟨q, hq, rfl⟩ := packetOf_some hp
    exact (onPacket_at hq).2
  · simp [ShareOp.run, Store.addCPF, Prog.modify, cpfOf]
  · obtain ⟨q, hq, rfl⟩ := cpfOf_some hp
    exact (onCPF_at hq).2

private theorem matches_updateLength (objs : List Obj) (q : SharedPacket) :
    LengthMatches ((SharedPacket.updateLength objs q).look objs) := by
  rw [look_updateLength]
  exact updateLength_matches _

/-- C120 does not hold when an object is changed: a packet and its copy both get the new payload and keep the old length
field, for any two objects whose sizes differ; after `updateLength` on one of them, the other is still wrong. -/
theorem c120_violated (o o' : Obj) (command : UInt16) (handle : UInt32)
    (differ : o.getLength % 65536 ≠ o'.getLength % 65536) :
    let ops := [ShareOp.make o, .newPacketWith command handle (some 0), .copyPacket 0, .change 0 o']
    LegalRun (ops ++ [.updateLength 0]) Store.empty ∧
    (∀ x < 2, ∃ p, packetOf (runShare ops Store.empty) x = some p ∧ p.payload = some o' ∧
      p.header.length.toNat = o.getLength % 65536 ∧ ¬ LengthMatches p) ∧
    (∃ p, packetOf (runShare (ops ++ [.updateLength 0]) Store.empty) 0 = some p ∧ LengthMatches p) ∧
    (∃ p, packetOf (runShare (ops ++ [.updateLength 0]) Store.empty) 1 = some p ∧ ¬ LengthMatches p) := by
  have bad : ∀ h : EncapHeader, h.length = UInt16.ofNat o.getLength → ¬ LengthMatches ⟨h, some o'⟩ := by
    intro h e
    simp only [LengthMatches, e]
    rw [UInt16.toNat_ofNat']
    exact differ
  refine ⟨⟨trivial, by show 0 < 1; omega, trivial, trivial, trivial, trivial⟩, fun x hx => ?_, ⟨_, rfl, ?_⟩, ⟨_, rfl, bad _ rfl⟩⟩
  · have : x = 0 ∨ x = 1 := by omega
    rcases this with rfl | rfl
    · exact ⟨_, rfl, rfl, by exact UInt16.toNat_ofNat' .., bad _ rfl⟩
    · exact ⟨_, rfl, rfl, by exact UInt16.toNat_ofNat' .., bad _ rfl⟩
  · exact matches_updateLength _ _

/-- What a change of an object does: every packet with a pointer to it has it as its payload from then on, and keeps its header;
all other packets are as they were. -/
theorem c120_violated_all (ops : List ShareOp) (i : Nat) (o : Obj) (exists_ : i < (runShare ops Store.empty).objs.length)
    (y : Nat) (q : SharedPacket) (h : (runShare ops Store.empty).packets[y]? = some q) :
    packetOf ((ShareOp.change i o).run (runShare ops Store.empty)).2 y =
      some ⟨q.header, if q.payload = some i then some o else pointee (runShare ops Store.empty).objs q.payload⟩ := by
  generalize runShare ops Store.empty = m at exists_ h
  simp only [packetOf, ShareOp.run, Prog.modify, h, Option.map_some, SharedPacket.look, Option.some.injEq, EncapPacket.mk.injEq,
    true_and]
  cases e : q.payload with
  | none => simp [pointee]
  | some j =>
    by_cases hj : j = i
    · subst hj
      simp [pointee, exists_]
    · have : i ≠ j := fun h => hj h.symm
      simp [pointee, hj, List.getElem?_set_ne this]

private theorem matches_parse {p : EncapPacket} {input : Bytes}
    (h : (EncapPacket.deserialize (p, .buffer (.new input))).1 = .ok ()) :
    LengthMatches (EncapPacket.deserialize (p, .buffer (.new input))).2.1 :=
  c74_length_field_after_any_history p [] (.parse input 0) h

private theorem matches_parseSized {p : EncapPacket} {n : Nat} {input : Bytes}
    (h : (EncapPacket.deserializeSized n (p, .buffer (.new input))).1 = .ok ()) :
    LengthMatches (EncapPacket.deserializeSized n (p, .buffer (.new input))).2.1 :=
  c74_length_field_after_any_history p [] (.parseSized n input 0) h

/-- The length fields of all packets are right. -/
private def AllMatch (m : Store) : Prop := ∀ y p, packetOf m y = some p → LengthMatches p

private theorem onPacket_match {m : Store} {x : Nat} {f : SharedPacket → List Obj → Res Unit × SharedPacket × List Obj}
    (ok : StoreOk m) (all : AllMatch m)
    (h : ∀ q, m.packets[x]? = some q → LengthMatches ((f q m.objs).2.1.look (f q m.objs).2.2) ∧
      ∃ new, (f q m.objs).2.2 = m.objs ++ new) : AllMatch (Store.onPacket x f m).2 := by
  intro y p hp
  cases e : m.packets[x]? with
  | none =>
    simp only [Store.onPacket, e] at hp
    exact all y p hp
  | some q =>
    obtain ⟨h1, new, h2⟩ := h q e
    by_cases hy : y = x
    · subst hy
      rw [(onPacket_at e).2] at hp
      cases hp
      exact h1
    · simp only [Store.onPacket, e, packetOf] at hp
      rw [List.getElem?_set_ne (fun h => hy h.symm)] at hp
      cases e2 : m.packets[y]? with
      | none => rw [e2] at hp; cases hp
      | some q2 =>
        rw [e2, h2] at hp
        simp only [Option.map_some, look_append (packet_ptr ok e2), Option.some.injEq] at hp
        exact all y p (by rw [packetOf, e2]; exact congrArg some hp)

private theorem addPacket_match {m : Store} {p : SharedPacket} (all : AllMatch m) (h : LengthMatches (p.look m.objs)) :
    AllMatch (Store.addPacket p m).2 := by
  intro y q hq
  simp only [Store.addPacket, Prog.modify, packetOf] at hq
  by_cases hy : y < m.packets.length
  · rw [List.getElem?_append_left hy] at hq
    exact all y q hq
  · rw [List.getElem?_append_right (by omega)] at hq
    cases k : y - m.packets.length with
    | zero => rw [k] at hq; cases hq; exact h
    | succ n => rw [k] at hq; simp at hq

private theorem steady_step {m : Store} {op : ShareOp} (ok : StoreOk m) (legal : Legal m op) (steady : Steady m op)
    (all : AllMatch m) : AllMatch (op.run m).2 := by
  have same : (op.run m).2.packets = m.packets → (∃ new, (op.run m).2.objs = m.objs ++ new) → AllMatch (op.run m).2 := by
    rintro e1 ⟨new, e2⟩ y p hp
    obtain ⟨q, h1, rfl⟩ := packetOf_some hp
    rw [e1] at h1
    rw [e2, look_append (packet_ptr ok h1)]
    exact all y _ (by rw [packetOf, h1]; rfl)
  have look : ∀ {x : Nat} {q : SharedPacket}, m.packets[x]? = some q → LengthMatches (q.look m.objs) := fun {x q} e =>
    all x _ (by rw [packetOf, e]; rfl)
  cases op with
  | make o => exact same rfl ⟨[o], rfl⟩
  | change i o =>
    intro y p hp
    obtain ⟨q, h1, rfl⟩ := packetOf_some hp
    have h2 := look (x := y) (q := q) h1
    simp only [LengthMatches, SharedPacket.look, ShareOp.run, Prog.modify] at h2 ⊢
    rw [h2]
    cases e : q.payload with
    | none => rfl
    | some j =>
      have hj : j < m.objs.length := ok.1 q (List.mem_of_getElem? h1) j e
      by_cases hij : i = j
      · subst hij
        have hs := steady m.objs[i] (List.getElem?_eq_getElem hj)
        simp [pointee, hj, hs]
      · simp only [pointee, Option.bind_some, List.getElem?_set_ne hij]
  | newPacket c h => exact addPacket_match all rfl
  | newPacketWith c h p => exact addPacket_match all (matches_updateLength _ _)
  | copyPacket x =>
    simp only [ShareOp.run] at same ⊢
    split
    · exact all
    · next p e => exact addPacket_match all (look e)
  | assignPacket x y =>
    simp only [ShareOp.run] at same ⊢
    split
    · exact all
    · next p e => exact onPacket_match ok all fun q _ => ⟨look e, [], by simp⟩
  | setPayload x p => exact onPacket_match ok all fun q _ => ⟨matches_updateLength _ _, [], by simp⟩
  | updateLength x => exact onPacket_match ok all fun q _ => ⟨matches_updateLength _ _, [], by simp⟩
  | setHeader x h =>
    refine onPacket_match ok all fun q e => ⟨?_, [], by simp⟩
    have := look e
    simp only [LengthMatches, SharedPacket.look] at this ⊢
    rw [steady q e]
    exact this
  | parse x input =>
    refine onPacket_match ok all fun q e => ?_
    obtain ⟨a', new, e1, l, _⟩ := SharedPacket.deserialize_sim (r := .buffer (BufferReader.new input)) (packet_ptr ok e)
    have hs := (onPacket_at (f := fun p objs =>
        match SharedPacket.deserialize ((p, objs), .buffer (BufferReader.new input)) with
        | (r, ((p', objs'), _)) => (r, p', objs')) e).1
    rw [e1] at hs
    rw [e1]
    refine ⟨?_, new, rfl⟩
    simp only at l ⊢
    rw [l]
    exact matches_parse (hs ▸ steady)
  | parseSized x n input =>
    refine onPacket_match ok all fun q e => ?_
    obtain ⟨a', new, e1, l, _⟩ := SharedPacket.deserializeSized_sim n (r := .buffer (BufferReader.new input)) (packet_ptr ok e)
    have hs := (onPacket_at (f := fun p objs =>
        match SharedPacket.deserializeSized n ((p, objs), .buffer (BufferReader.new input)) with
        | (r, ((p', objs'), _)) => (r, p', objs')) e).1
    rw [e1] at hs
    rw [e1]
    refine ⟨?_, new, rfl⟩
    simp only at l ⊢
    rw [l]
    exact matches_parseSized (hs ▸ steady)
  | newCPF => exact all
  | copyCPF x => exact same (by simp only [ShareOp.run]; split <;> rfl) (share_step ok legal nofun).objs
  | assignCPF x y =>
    exact same (by simp only [ShareOp.run, Store.onCPF]; split; · rfl
                   · split <;> rfl) (share_step ok legal nofun).objs
  | setItems x l => exact same (by simp only [ShareOp.run, Store.onCPF]; split <;> rfl) (share_step ok legal nofun).objs
  | parseCPF x input => exact same (by simp only [ShareOp.run, Store.onCPF]; split <;> rfl) (share_step ok legal nofun).objs

/-- C120, as far as it holds, for the length field: if a program changes objects only without changing their size, does not
assign length fields and its parses return, then all its packets have the right length field. And whatever it has done,
`updateLength` makes the field right. What is missing: changes of the size. -/
theorem c120_length_partial (ops : List ShareOp) (legal : LegalRun ops Store.empty) :
    (SteadyRun ops Store.empty → ∀ x p, packetOf (runShare ops Store.empty) x = some p → LengthMatches p) ∧
    (∀ x p, packetOf ((ShareOp.updateLength x).run (runShare ops Store.empty)).2 x = some p → LengthMatches p) := by
  refine ⟨fun steady => ?_, fun x p h => ?_⟩
  · suffices H : ∀ (ops : List ShareOp) (m : Store), StoreOk m → AllMatch m → LegalRun ops m → SteadyRun ops m →
        AllMatch (runShare ops m) from H ops _ empty_ok nofun legal steady
    intro ops
    induction ops with
    | nil => exact fun m _ all _ _ => all
    | cons op ops ih =>
      exact fun m ok all l s => ih _ (share_ok ok l.1) (steady_step ok l.1 s.1 all) l.2 s.2
  · cases e : (runShare ops Store.empty).packets[x]? with
    | none => simp [ShareOp.run, Store.onPacket, e, packetOf] at h
    | some q =>
      rw [show packetOf ((ShareOp.updateLength x).run (runShare ops Store.empty)).2 x = _ from (onPacket_at e).2] at h
      cases h
      exact matches_updateLength _ _

/-- A packet is copied, the original parsed anew: the copy keeps its three bytes. Then the three bytes are exchanged for
others: that is steady, and the copy has the new ones. -/
example :
    let raw (bs : Bytes) : Obj := SerializableBuffer.obj ⟨bs⟩
    let ops := [ShareOp.make (raw [1, 2, 3]), .newPacketWith 0x65 7 (some 0), .copyPacket 0,
      .parse 0 ([0x65, 0, 1, 0] ++ List.replicate 20 0 ++ [9]), .change 0 (raw [4, 5, 6])]
    LegalRun ops Store.empty ∧ SteadyRun ops Store.empty ∧
    (packetOf (runShare ops Store.empty) 0).map (fun p => (p.header.length, p.payload.bind (·.asBuffer))) = some (1, some [9]) ∧
    (packetOf (runShare ops Store.empty) 1).map (fun p => (p.header.length, p.payload.bind (·.asBuffer))) =
      some (3, some [4, 5, 6]) := by
  refine ⟨⟨trivial, by show 0 < 1; omega, trivial, trivial, trivial, trivial⟩,
    ⟨trivial, trivial, trivial, by unfold Steady; decide +kernel, fun old h => ?_, trivial⟩, by decide +kernel, by decide +kernel⟩
  cases h
  rfl

end Eip
