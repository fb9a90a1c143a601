import Verif.Spec.Sharing
import Verif.Lemmas.Robust
/-
Lemmas about packets that share their payloads: every function does to a packet what it does to one that shares nothing, and
leaves all objects that existed before alone.
-/
namespace Eip
open Spec

section Sim
variable {A V : Type} (look : List Obj → A → V) (valid : Nat → A → Prop)

/-- `P`, run on a packet with pointers, does what `Q` does to the packet as it looks; objects are only added. -/
def SimAt {α : Type} (P : Prog ((A × List Obj) × Reader) α) (Q : Prog (V × Reader) α) (a : A) (objs : List Obj) (r : Reader) :
    Prop :=
  ∃ a' new, P ((a, objs), r) = ((Q (look objs a, r)).1, ((a', objs ++ new), (Q (look objs a, r)).2.2)) ∧
    look (objs ++ new) a' = (Q (look objs a, r)).2.1 ∧ valid (objs ++ new).length a'

variable {look valid}

theorem SimAt.bind {α β : Type} {P : Prog ((A × List Obj) × Reader) α} {Q : Prog (V × Reader) α}
    {f : α → Prog ((A × List Obj) × Reader) β} {g : α → Prog (V × Reader) β} {a : A} {objs : List Obj} {r : Reader}
    (h : SimAt look valid P Q a objs r)
    (h2 : ∀ x a' new r', valid (objs ++ new).length a' → SimAt look valid (f x) (g x) a' (objs ++ new) r') :
    SimAt look valid (P >>= f) (Q >>= g) a objs r := by
  obtain ⟨a', new, e, l, v⟩ := h
  unfold SimAt
  cases q : Q (look objs a, r) with
  | mk res st =>
    obtain ⟨v', r'⟩ := st
    rw [q] at e l
    cases res with
    | ok x =>
      obtain ⟨a2, new2, e2, l2, v2⟩ := h2 x a' new r' v
      simp only at l
      rw [l] at e2 l2
      refine ⟨a2, new ++ new2, ?_, ?_, ?_⟩
      · rw [Prog.bind_ok e, Prog.bind_ok q, e2, List.append_assoc]
      · rw [Prog.bind_ok q, ← List.append_assoc]; exact l2
      · rw [← List.append_assoc]; exact v2
    | throw x => exact ⟨a', new, by rw [Prog.bind_throw e, Prog.bind_throw q], by rw [Prog.bind_throw q]; exact l, v⟩
    | ub x => exact ⟨a', new, by rw [Prog.bind_ub e, Prog.bind_ub q], by rw [Prog.bind_ub q]; exact l, v⟩

/-- A program that does not touch the object. -/
def Aloof {α : Type} (p : (δ : Type) → Prog (δ × Reader) α) : Prop :=
  ∀ r, ∃ x r', ∀ (δ : Type) (d : δ), p δ (d, r) = (x, (d, r'))

theorem SimAt.aloof {α : Type} {p : (δ : Type) → Prog (δ × Reader) α} (h : Aloof p) {a : A} {objs : List Obj} {r : Reader}
    (v : valid objs.length a) : SimAt look valid (p _) (p _) a objs r := by
  obtain ⟨x, r', e⟩ := h r
  exact ⟨a, [], by rw [e, e]; simp, by rw [e]; simp, by simpa using v⟩

theorem SimAt.modify {f : A × List Obj → A × List Obj} {g : V → V} {a : A} {objs : List Obj} {r : Reader}
    (h : ∃ new, (f (a, objs)).2 = objs ++ new ∧ look (objs ++ new) (f (a, objs)).1 = g (look objs a) ∧
      valid (objs ++ new).length (f (a, objs)).1) :
    SimAt look valid (modifyObj f) (modifyObj g) a objs r := by
  obtain ⟨new, h1, h2, h3⟩ := h
  refine ⟨(f (a, objs)).1, new, ?_, h2, h3⟩
  simp only [modifyObj]
  rw [← h1]

theorem SimAt.raise {α : Type} {e : Exn} {a : A} {objs : List Obj} {r : Reader} (v : valid objs.length a) :
    SimAt look valid (Prog.raise e : Prog _ α) (Prog.raise e) a objs r := by
  refine ⟨a, [], ?_, ?_, ?_⟩ <;> simp [Prog.raise, v]

theorem SimAt.getObj {α : Type} {f : A × List Obj → Prog ((A × List Obj) × Reader) α} {g : V → Prog (V × Reader) α} {a : A}
    {objs : List Obj} {r : Reader} (h : SimAt look valid (f (a, objs)) (g (look objs a)) a objs r) :
    SimAt look valid (Eip.getObj >>= f) (Eip.getObj >>= g) a objs r := h

end Sim

theorem aloof_readLocal16 : Aloof (fun _ => readLocal16) := by
  intro r
  cases h : Reader.readLocal 2 r with
  | mk x r' =>
    cases x with
    | ok b => exact ⟨.ok (de16 b), r', fun δ d => by
        simp only [readLocal16, Prog.bind_def, Prog.andThen, onReader, Prog.zoom, h]; rfl⟩
    | throw e => exact ⟨.throw e, r', fun δ d => by
        simp only [readLocal16, Prog.bind_def, Prog.andThen, onReader, Prog.zoom, h]⟩
    | ub e => exact ⟨.ub e, r', fun δ d => by
        simp only [readLocal16, Prog.bind_def, Prog.andThen, onReader, Prog.zoom, h]⟩

theorem aloof_readNewBuffer (n : Nat) : Aloof (fun _ => readNewBuffer n) := by
  intro r
  cases h : SerializableBuffer.deserializeLen n (SerializableBuffer.empty, r) with
  | mk x s =>
    obtain ⟨sb, r'⟩ := s
    cases x with
    | ok _ => exact ⟨.ok sb, r', fun δ d => by simp only [readNewBuffer, parseFresh, h]⟩
    | throw e => exact ⟨.throw e, r', fun δ d => by simp only [readNewBuffer, parseFresh, h]⟩
    | ub e => exact ⟨.ub e, r', fun δ d => by simp only [readNewBuffer, parseFresh, h]⟩

theorem pointee_append {objs new : List Obj} {p : Option Nat} (h : ∀ i, p = some i → i < objs.length) :
    pointee (objs ++ new) p = pointee objs p := by
  cases p with
  | none => rfl
  | some i => simp [pointee, List.getElem?_append_left (h i rfl)]

theorem pointee_new (objs : List Obj) (o : Obj) : pointee (objs ++ [o]) (some objs.length) = some o := by
  simp [pointee]

/-- The pointer of a packet or an item is null or to an object that exists. -/
def PtrOk (n : Nat) (p : Option Nat) : Prop := ∀ i, p = some i → i < n

theorem PtrOk.mono {n m : Nat} {p : Option Nat} (h : PtrOk n p) (hm : n ≤ m) : PtrOk m p :=
  fun i e => Nat.lt_of_lt_of_le (h i e) hm

theorem PtrOk.none {n : Nat} : PtrOk n none := nofun

theorem points_iff (m : Store) (p : Option Nat) : Points m p ↔ PtrOk m.objs.length p := by
  cases p with
  | none => exact ⟨fun _ => nofun, fun _ => trivial⟩
  | some i => exact ⟨fun h j e => by cases e; exact h, fun h => h i rfl⟩

/-! ### Encapsulation packets -/

abbrev PacketSim {α : Type} (P : Prog ((SharedPacket × List Obj) × Reader) α) (Q : Prog (EncapPacket × Reader) α) :=
  SimAt (fun objs a => SharedPacket.look objs a) (fun n a => PtrOk n a.payload) P Q

theorem header_sim {p : SharedPacket} {objs : List Obj} {r : Reader} (v : PtrOk objs.length p.payload) :
    PacketSim (onPart (·.1.header) (fun h s => ({ s.1 with header := h }, s.2)) EncapHeader.deserialize)
      (onPart (·.header) (fun h p => { p with header := h }) EncapHeader.deserialize) p objs r := by
  refine ⟨{ p with header := (EncapHeader.deserialize (p.header, r)).2.1 }, [], ?_, ?_, by simpa using v⟩
  · simp only [onPart, Prog.zoom, SharedPacket.look, List.append_nil]
  · simp only [onPart, Prog.zoom, SharedPacket.look, List.append_nil]

theorem SharedPacket.deserialize_sim {p : SharedPacket} {objs : List Obj} {r : Reader} (v : PtrOk objs.length p.payload) :
    PacketSim SharedPacket.deserialize EncapPacket.deserialize p objs r := by
  unfold SharedPacket.deserialize EncapPacket.deserialize
  refine SimAt.bind (header_sim v) fun _ p' new r' v' => SimAt.getObj ?_
  have : (SharedPacket.look (objs ++ new) p').header = p'.header := rfl
  simp only [this]
  split
  · refine SimAt.bind (SimAt.aloof (aloof_readNewBuffer _) v') fun sb p2 new2 r2 v2 => SimAt.modify ?_
    refine ⟨[sb.obj], rfl, ?_, ?_⟩
    · simp only [SharedPacket.look, pointee_new]
    · intro i e; cases e; simp
  · refine SimAt.modify ?_
    refine ⟨[], by simp, ?_, PtrOk.none⟩
    simp [SharedPacket.look, pointee]

/-- A new empty buffer, read into through the pointer to it. -/
theorem fill_sim {A V : Type} {look : List Obj → A → V} {valid : Nat → A → Prop} {a : A} {objs : List Obj} {r : Reader}
    {point : A × List Obj → A × List Obj} {store : SerializableBuffer → A × List Obj → A × List Obj} {g : Obj → V → V} (n : Nat)
    (h1 : ∀ o, (point (a, objs)).2 = objs ++ [SerializableBuffer.empty.obj] ∧
      look (objs ++ [o]) (point (a, objs)).1 = g o (look objs a) ∧ valid (objs.length + 1) (point (a, objs)).1)
    (h2 : ∀ sb, store sb ((point (a, objs)).1, objs ++ [SerializableBuffer.empty.obj]) = ((point (a, objs)).1, objs ++ [sb.obj]))
    (gg : ∀ o o' v, g o (g o' v) = g o v) :
    SimAt look valid (do
        modifyObj point
        let sb ← readNewBuffer n
        modifyObj (store sb))
      (do
        modifyObj (g SerializableBuffer.empty.obj)
        let sb ← readNewBuffer n
        modifyObj (g sb.obj)) a objs r := by
  obtain ⟨x, r', e⟩ := aloof_readNewBuffer n r
  have e1 := fun o => (h1 o).2.1
  have v1 := (h1 SerializableBuffer.empty.obj).2.2
  have p1 : point (a, objs) = ((point (a, objs)).1, objs ++ [SerializableBuffer.empty.obj]) := by
    rw [← (h1 SerializableBuffer.empty.obj).1]
  cases x with
  | ok sb =>
    refine ⟨(point (a, objs)).1, [sb.obj], ?_, ?_, by simpa using v1⟩
    · simp only [Prog.bind_def, Prog.andThen, modifyObj, e]
      rw [p1, h2]
    · simp only [Prog.bind_def, Prog.andThen, modifyObj, e, gg]
      exact e1 _
  | throw y =>
    refine ⟨(point (a, objs)).1, [SerializableBuffer.empty.obj], ?_, ?_, by simpa using v1⟩
    · simp only [Prog.bind_def, Prog.andThen, modifyObj, e]
      rw [p1]
    · simp only [Prog.bind_def, Prog.andThen, modifyObj, e]
      exact e1 _
  | ub y =>
    refine ⟨(point (a, objs)).1, [SerializableBuffer.empty.obj], ?_, ?_, by simpa using v1⟩
    · simp only [Prog.bind_def, Prog.andThen, modifyObj, e]
      rw [p1]
    · simp only [Prog.bind_def, Prog.andThen, modifyObj, e]
      exact e1 _

theorem set_last (objs : List Obj) (a b : Obj) : (objs ++ [a]).set objs.length b = objs ++ [b] := by
  simp

theorem SharedPacket.deserializeSized_sim (n : Nat) {p : SharedPacket} {objs : List Obj} {r : Reader}
    (v : PtrOk objs.length p.payload) :
    PacketSim (SharedPacket.deserializeSized n) (EncapPacket.deserializeSized n) p objs r := by
  unfold SharedPacket.deserializeSized EncapPacket.deserializeSized
  refine SimAt.getObj ?_
  have : (SharedPacket.look objs p).header = p.header := rfl
  simp only [this]
  split
  · exact SimAt.raise v
  · refine SimAt.bind (header_sim v) fun _ p' new r' v' => SimAt.getObj ?_
    have : (SharedPacket.look (objs ++ new) p').header = p'.header := rfl
    simp only [this]
    split
    · exact SimAt.raise v'
    · split
      · refine fill_sim (g := fun o (p : EncapPacket) => { p with payload := some o }) _ (fun o => ⟨rfl, ?_, ?_⟩) (fun sb => ?_)
          (fun _ _ _ => rfl)
        · simp only [SharedPacket.look, pointee_new]
        · intro i e; cases e; simp
        · simp only [Option.getD_some, set_last]
      · refine SimAt.modify ?_
        refine ⟨[], by simp, ?_, PtrOk.none⟩
        simp [SharedPacket.look, pointee]

/-! ### CPF packets -/

theorem SharedItem.deserialize_sim {i : SharedItem} {objs : List Obj} {r : Reader} (v : PtrOk objs.length i.data) :
    SimAt (fun objs a => SharedItem.look objs a) (fun n a => PtrOk n a.data) SharedItem.deserialize CPFItem.deserialize i objs r := by
  unfold SharedItem.deserialize CPFItem.deserialize
  refine SimAt.bind ?_ fun _ i' new r' v' => SimAt.bind (SimAt.aloof aloof_readLocal16 v') fun len i2 new2 r2 v2 => ?_
  · cases h : Reader.readInto (Codec.u16.enc i.itemType) r with
    | mk x r' =>
      cases x with
      | ok bs =>
        refine ⟨{ i with itemType := Codec.u16.dec bs }, [], ?_, ?_, by simpa using v⟩ <;>
          simp [readMember, Prog.bind_def, Prog.andThen, getObj, onReader, Prog.zoom, SharedItem.look, h, modifyObj]
      | throw e =>
        refine ⟨i, [], ?_, ?_, by simpa using v⟩ <;>
          simp [readMember, Prog.bind_def, Prog.andThen, getObj, onReader, Prog.zoom, SharedItem.look, h]
      | ub e =>
        refine ⟨i, [], ?_, ?_, by simpa using v⟩ <;>
          simp [readMember, Prog.bind_def, Prog.andThen, getObj, onReader, Prog.zoom, SharedItem.look, h]
  · unfold CPFItem.deserializeData
    split
    · refine fill_sim (g := fun o (p : CPFItem) => { p with data := some o }) _ (fun o => ⟨rfl, ?_, ?_⟩) (fun sb => ?_) (fun _ _ _ => rfl)
      · simp only [SharedItem.look, pointee_new]
      · intro i e; cases e; simp
      · simp only [Option.getD_some, set_last]
    · refine SimAt.modify ?_
      refine ⟨[], by simp, ?_, PtrOk.none⟩
      simp [SharedItem.look, pointee]

abbrev lookCPF (objs : List Obj) (l : List SharedItem) : CPFPacket := ⟨l.map (·.look objs)⟩

abbrev CPFSim {α : Type} (P : Prog ((List SharedItem × List Obj) × Reader) α) (Q : Prog (CPFPacket × Reader) α) :=
  SimAt lookCPF (fun n l => ∀ i ∈ l, PtrOk n i.data) P Q

theorem lookCPF_append {objs new : List Obj} {l : List SharedItem} (v : ∀ i ∈ l, PtrOk objs.length i.data) :
    lookCPF (objs ++ new) l = lookCPF objs l := by
  simp only [lookCPF, CPFPacket.mk.injEq]
  refine List.map_congr_left fun i hi => ?_
  simp only [SharedItem.look, pointee_append (v i hi)]

theorem SharedItem.items_sim (n : Nat) {l : List SharedItem} {objs : List Obj} {r : Reader}
    (v : ∀ i ∈ l, PtrOk objs.length i.data) :
    CPFSim (SharedItem.deserializeItems n) (CPFPacket.deserializeItems n) l objs r := by
  induction n generalizing l objs r with
  | zero => exact ⟨l, [], by simp [SharedItem.deserializeItems, CPFPacket.deserializeItems, Prog.pure_apply],
      by simp [CPFPacket.deserializeItems, Prog.pure_apply], by simpa using v⟩
  | succ n ih =>
    obtain ⟨i', new, e, hl, hv⟩ := SharedItem.deserialize_sim (i := ⟨itemNull, none⟩) (objs := objs) (r := r) .none
    have hnull : SharedItem.look objs ⟨itemNull, none⟩ = CPFItem.null := rfl
    simp only [hnull] at e hl
    have vl : ∀ i ∈ l, PtrOk (objs ++ new).length i.data := fun i hi => (v i hi).mono (by simp)
    unfold CPFSim SimAt
    simp only [SharedItem.deserializeItems, CPFPacket.deserializeItems, Prog.bind_def, Prog.andThen, SharedItem.parseNew, parseFresh]
    rw [e]
    cases q : CPFItem.deserialize (CPFItem.null, r) with
    | mk x s =>
      obtain ⟨item, r'⟩ := s
      rw [q] at hl
      cases x with
      | ok _ =>
        obtain ⟨l2, new2, e2, hl2, hv2⟩ := ih (l := l ++ [i']) (objs := objs ++ new) (r := r') (by
          intro i hi
          rcases List.mem_append.mp hi with hi | hi
          · exact vl i hi
          · rw [List.mem_singleton.mp hi]; exact hv)
        have ll : lookCPF (objs ++ new) (l ++ [i']) = ⟨(lookCPF objs l).items ++ [item]⟩ := by
          have := congrArg CPFPacket.items (lookCPF_append (new := new) v)
          simp only [lookCPF] at this ⊢
          simp only [List.map_append, List.map_cons, List.map_nil, this]
          rw [show SharedItem.look (objs ++ new) i' = item from hl]
        rw [ll] at e2 hl2
        refine ⟨l2, new ++ new2, ?_, ?_, by rw [← List.append_assoc]; exact hv2⟩
        · simp only [modifyObj, e2, List.append_assoc]
        · rw [← List.append_assoc]; exact hl2
      | throw y => exact ⟨l, new, rfl, lookCPF_append v, vl⟩
      | ub y => exact ⟨l, new, rfl, lookCPF_append v, vl⟩

theorem SharedItem.packet_sim {l : List SharedItem} {objs : List Obj} {r : Reader} :
    CPFSim SharedItem.deserializePacket CPFPacket.deserialize l objs r := by
  unfold SharedItem.deserializePacket CPFPacket.deserialize
  refine SimAt.bind (SimAt.modify ⟨[], by simp, rfl, nofun⟩) fun _ l' new r' v' =>
    SimAt.bind (SimAt.aloof aloof_readLocal16 v') fun n l2 new2 r2 v2 => SharedItem.items_sim _ v2

/-! ### Programs -/

/-- All pointers are null or to objects that exist. -/
def StoreOk (m : Store) : Prop :=
  (∀ p ∈ m.packets, PtrOk m.objs.length p.payload) ∧ ∀ l ∈ m.cpfs, ∀ i ∈ l, PtrOk m.objs.length i.data

/-- What a step other than a change of an object leaves alone. -/
structure ShareStep (m m' : Store) (tp tc : Option Nat) : Prop where
  ok : StoreOk m'
  objs : ∃ new, m'.objs = m.objs ++ new
  packets : ∀ y p, tp ≠ some y → m.packets[y]? = some p → m'.packets[y]? = some p
  cpfs : ∀ y l, tc ≠ some y → m.cpfs[y]? = some l → m'.cpfs[y]? = some l

theorem ShareStep.refl {m : Store} {tp tc : Option Nat} (ok : StoreOk m) : ShareStep m m tp tc :=
  ⟨ok, ⟨[], by simp⟩, fun _ _ _ h => h, fun _ _ _ h => h⟩

theorem onPacket_ok {m : Store} {x : Nat} {f : SharedPacket → List Obj → Res Unit × SharedPacket × List Obj} (ok : StoreOk m)
    (h : ∀ p, m.packets[x]? = some p →
      ∃ new, (f p m.objs).2.2 = m.objs ++ new ∧ PtrOk (m.objs ++ new).length (f p m.objs).2.1.payload) :
    ShareStep m (Store.onPacket x f m).2 (some x) none := by
  unfold Store.onPacket
  cases e : m.packets[x]? with
  | none => exact .refl ok
  | some p =>
    obtain ⟨new, h1, h2⟩ := h p e
    refine ⟨⟨fun q hq => ?_, fun l hl i hi => ?_⟩, ⟨new, h1⟩, fun y q hy hq => ?_, fun y l _ hl => hl⟩
    · simp only at hq ⊢
      rw [h1]
      rcases List.mem_or_eq_of_mem_set hq with hq | rfl
      · exact (ok.1 q hq).mono (by simp)
      · exact h2
    · simp only
      rw [h1]
      exact (ok.2 l hl i hi).mono (by simp)
    · simp only
      rw [List.getElem?_set_ne (by rintro rfl; exact hy rfl)]
      exact hq

theorem onCPF_ok {m : Store} {x : Nat} {f : List SharedItem → List Obj → Res Unit × List SharedItem × List Obj} (ok : StoreOk m)
    (h : ∀ p, m.cpfs[x]? = some p →
      ∃ new, (f p m.objs).2.2 = m.objs ++ new ∧ ∀ i ∈ (f p m.objs).2.1, PtrOk (m.objs ++ new).length i.data) :
    ShareStep m (Store.onCPF x f m).2 none (some x) := by
  unfold Store.onCPF
  cases e : m.cpfs[x]? with
  | none => exact .refl ok
  | some p =>
    obtain ⟨new, h1, h2⟩ := h p e
    refine ⟨⟨fun q hq => ?_, fun l hl i hi => ?_⟩, ⟨new, h1⟩, fun y q _ hq => hq, fun y l hy hl => ?_⟩
    · simp only
      rw [h1]
      exact (ok.1 q hq).mono (by simp)
    · simp only at hl ⊢
      rw [h1]
      rcases List.mem_or_eq_of_mem_set hl with hl | rfl
      · exact (ok.2 l hl i hi).mono (by simp)
      · exact h2 i hi
    · simp only
      rw [List.getElem?_set_ne (by rintro rfl; exact hy rfl)]
      exact hl

theorem addPacket_ok {m : Store} {p : SharedPacket} (ok : StoreOk m) (h : PtrOk m.objs.length p.payload) :
    ShareStep m (Store.addPacket p m).2 none none := by
  refine ⟨⟨fun q hq => ?_, ok.2⟩, ⟨[], by simp [Store.addPacket, Prog.modify]⟩, fun y q _ hq => ?_, fun y l _ hl => hl⟩
  · rcases List.mem_append.mp hq with hq | hq
    · exact ok.1 q hq
    · rw [List.mem_singleton.mp hq]; exact h
  · simp only [Store.addPacket, Prog.modify]
    rw [List.getElem?_append_left (List.getElem?_eq_some_iff.mp hq).1]
    exact hq

theorem addCPF_ok {m : Store} {p : List SharedItem} (ok : StoreOk m) (h : ∀ i ∈ p, PtrOk m.objs.length i.data) :
    ShareStep m (Store.addCPF p m).2 none none := by
  refine ⟨⟨ok.1, fun l hl => ?_⟩, ⟨[], by simp [Store.addCPF, Prog.modify]⟩, fun y q _ hq => hq, fun y l _ hl => ?_⟩
  · rcases List.mem_append.mp hl with hl | hl
    · exact ok.2 l hl
    · rw [List.mem_singleton.mp hl]; exact h
  · simp only [Store.addCPF, Prog.modify]
    rw [List.getElem?_append_left (List.getElem?_eq_some_iff.mp hl).1]
    exact hl

theorem packet_ptr {m : Store} (ok : StoreOk m) {x : Nat} {p : SharedPacket} (h : m.packets[x]? = some p) :
    PtrOk m.objs.length p.payload := ok.1 p (List.mem_of_getElem? h)

theorem share_step {m : Store} {op : ShareOp} (ok : StoreOk m) (legal : Legal m op) (hc : ∀ i o, op ≠ .change i o) :
    ShareStep m (op.run m).2 (packetTarget op) (cpfTarget op) := by
  cases op with
  | make o =>
    refine ⟨⟨fun p hp => ?_, fun l hl i hi => ?_⟩, ⟨[o], rfl⟩, fun _ _ _ h => h, fun _ _ _ h => h⟩
    · exact (ok.1 p hp).mono (by simp [ShareOp.run, Prog.modify])
    · exact (ok.2 l hl i hi).mono (by simp [ShareOp.run, Prog.modify])
  | change i o => exact absurd rfl (hc i o)
  | newPacket c h => exact addPacket_ok ok .none
  | newPacketWith c h p => exact addPacket_ok ok ((points_iff m p).mp legal)
  | copyPacket x =>
    simp only [ShareOp.run]
    split
    · exact .refl ok
    · next p e => exact addPacket_ok ok (packet_ptr ok e)
  | assignPacket x y =>
    simp only [ShareOp.run]
    split
    · exact .refl ok
    · next p e => exact onPacket_ok ok fun q _ => ⟨[], by simp, by simpa using packet_ptr ok e⟩
  | setPayload x p => exact onPacket_ok ok fun q _ => ⟨[], by simp, by simpa [SharedPacket.updateLength] using (points_iff m p).mp legal⟩
  | updateLength x => exact onPacket_ok ok fun q e => ⟨[], by simp, by simpa [SharedPacket.updateLength] using packet_ptr ok e⟩
  | setHeader x h => exact onPacket_ok ok fun q e => ⟨[], by simp, by simpa using packet_ptr ok e⟩
  | parse x input =>
    refine onPacket_ok ok fun q e => ?_
    obtain ⟨a', new, e, _, v⟩ := SharedPacket.deserialize_sim (r := .buffer (BufferReader.new input)) (packet_ptr ok e)
    rw [e]
    exact ⟨new, rfl, v⟩
  | parseSized x n input =>
    refine onPacket_ok ok fun q e => ?_
    obtain ⟨a', new, e, _, v⟩ := SharedPacket.deserializeSized_sim n (r := .buffer (BufferReader.new input)) (packet_ptr ok e)
    rw [e]
    exact ⟨new, rfl, v⟩
  | newCPF => exact addCPF_ok ok nofun
  | copyCPF x =>
    simp only [ShareOp.run]
    split
    · exact .refl ok
    · next l e => exact addCPF_ok ok (ok.2 l (List.mem_of_getElem? e))
  | assignCPF x y =>
    simp only [ShareOp.run]
    split
    · exact .refl ok
    · next l e => exact onCPF_ok ok fun q _ => ⟨[], by simp, by simpa using ok.2 l (List.mem_of_getElem? e)⟩
  | setItems x l =>
    exact onCPF_ok ok fun q _ => ⟨[], by simp, fun i hi => by simpa using (points_iff m _).mp (legal i hi)⟩
  | parseCPF x input =>
    refine onCPF_ok ok fun q e => ?_
    obtain ⟨a', new, e, _, v⟩ := SharedItem.packet_sim (l := q) (objs := m.objs) (r := .buffer (BufferReader.new input))
    rw [e]
    exact ⟨new, rfl, v⟩

theorem change_ok {m : Store} (ok : StoreOk m) (i : Nat) (o : Obj) : StoreOk ((ShareOp.change i o).run m).2 := by
  simpa [StoreOk, ShareOp.run, Prog.modify] using ok

theorem share_ok {m : Store} {op : ShareOp} (ok : StoreOk m) (legal : Legal m op) : StoreOk (op.run m).2 := by
  by_cases h : ∃ i o, op = .change i o
  · obtain ⟨i, o, rfl⟩ := h
    exact change_ok ok i o
  · exact (share_step ok legal fun i o e => h ⟨i, o, e⟩).ok

theorem runShare_ok {ops : List ShareOp} {m : Store} (ok : StoreOk m) (legal : LegalRun ops m) : StoreOk (runShare ops m) := by
  induction ops generalizing m with
  | nil => exact ok
  | cons op ops ih => exact ih (share_ok ok legal.1) legal.2

theorem runShare_append (ops ops' : List ShareOp) (m : Store) : runShare (ops ++ ops') m = runShare ops' (runShare ops m) := by
  induction ops generalizing m with
  | nil => rfl
  | cons op ops ih => exact ih _

theorem legalRun_append {ops ops' : List ShareOp} {m : Store} (h : LegalRun (ops ++ ops') m) :
    LegalRun ops m ∧ LegalRun ops' (runShare ops m) := by
  induction ops generalizing m with
  | nil => exact ⟨trivial, h⟩
  | cons op ops ih => exact ⟨⟨h.1, (ih h.2).1⟩, (ih h.2).2⟩

theorem empty_ok : StoreOk Store.empty := ⟨nofun, nofun⟩

theorem packetOf_some {m : Store} {x : Nat} {p : EncapPacket} (h : packetOf m x = some p) :
    ∃ q, m.packets[x]? = some q ∧ p = q.look m.objs := by
  unfold packetOf at h
  cases e : m.packets[x]? with
  | none => rw [e] at h; cases h
  | some q => rw [e] at h; cases h; exact ⟨q, rfl, rfl⟩

theorem cpfOf_some {m : Store} {x : Nat} {p : CPFPacket} (h : cpfOf m x = some p) :
    ∃ l, m.cpfs[x]? = some l ∧ p = lookCPF m.objs l := by
  unfold cpfOf at h
  cases e : m.cpfs[x]? with
  | none => rw [e] at h; cases h
  | some q => rw [e] at h; cases h; exact ⟨q, rfl, rfl⟩

theorem look_append {objs new : List Obj} {q : SharedPacket} (h : PtrOk objs.length q.payload) :
    q.look (objs ++ new) = q.look objs := by
  simp only [SharedPacket.look, pointee_append h]

/-- What a function does to the packet it is called on. -/
theorem onPacket_at {m : Store} {x : Nat} {f : SharedPacket → List Obj → Res Unit × SharedPacket × List Obj} {q : SharedPacket}
    (h : m.packets[x]? = some q) :
    (Store.onPacket x f m).1 = (f q m.objs).1 ∧
    packetOf (Store.onPacket x f m).2 x = some ((f q m.objs).2.1.look (f q m.objs).2.2) := by
  have hx := (List.getElem?_eq_some_iff.mp h).1
  simp only [Store.onPacket, h, packetOf]
  exact ⟨trivial, by rw [List.getElem?_set_self hx]; rfl⟩

theorem onCPF_at {m : Store} {x : Nat} {f : List SharedItem → List Obj → Res Unit × List SharedItem × List Obj}
    {q : List SharedItem} (h : m.cpfs[x]? = some q) :
    (Store.onCPF x f m).1 = (f q m.objs).1 ∧
    cpfOf (Store.onCPF x f m).2 x = some (lookCPF (f q m.objs).2.2 (f q m.objs).2.1) := by
  have hx := (List.getElem?_eq_some_iff.mp h).1
  simp only [Store.onCPF, h, cpfOf]
  exact ⟨trivial, by rw [List.getElem?_set_self hx]; rfl⟩

theorem look_updateLength (objs : List Obj) (q : SharedPacket) : (q.updateLength objs).look objs = (q.look objs).updateLength :=
  rfl

end Eip
