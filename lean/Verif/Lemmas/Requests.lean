import Verif.Lemmas.Appends
import Verif.Lemmas.Effects
import Verif.Spec.Connections
/-
Which requests each call sends, and what it does to the connections.
-/
namespace Eip
open Spec

/-- Whenever `p` returns normally on a buffer writer it has written `bs` and then possibly more. -/
def Starts (p : Prog Writer Unit) (bs : Bytes) : Prop :=
  ∀ bw w', p (.buffer bw) = (.ok (), w') → ∃ bw' extra, w' = .buffer bw' ∧ bw'.written = bw.written ++ bs ++ extra

theorem Starts.of_writes {p : Prog Writer Unit} {bs : Bytes} (h : Writes p bs) : Starts p bs := by
  intro bw w' e
  by_cases hf : bs.length ≤ bw.rest.length
  · rw [h.fits bw hf] at e
    simp only [Prod.mk.injEq, true_and] at e
    exact ⟨_, [], e.symm, by simp⟩
  · obtain ⟨what, bw', _, e', _⟩ := h.full bw (by omega)
    rw [e] at e'
    simp at e'

theorem Starts.append {p q : Prog Writer Unit} {bs : Bytes} (hp : Starts p bs) (hq : Appends q) :
    Starts (do p; q) bs := by
  intro bw w' e
  obtain ⟨a, w1, e1, e2⟩ := Prog.bind_eq_ok e
  obtain ⟨bw1, x1, rfl, h1⟩ := hp bw w1 e1
  obtain ⟨bw2, x2, rfl, h2⟩ := hq bw1 w' e2
  exact ⟨bw2, x1 ++ x2, rfl, by rw [h2, h1, List.append_assoc]⟩

theorem Starts.after {p q : Prog Writer Unit} {bs cs : Bytes} (hp : Writes p bs) (hq : Starts q cs) :
    Starts (do p; q) (bs ++ cs) := by
  intro bw w' e
  obtain ⟨a, w1, e1, e2⟩ := Prog.bind_eq_ok e
  by_cases hf : bs.length ≤ bw.rest.length
  · rw [hp.fits bw hf] at e1
    simp only [Prod.mk.injEq, true_and] at e1
    rw [← e1] at e2
    obtain ⟨bw2, x2, rfl, h2⟩ := hq _ w' e2
    exact ⟨bw2, x2, rfl, by rw [h2]; simp⟩
  · obtain ⟨what, bw', _, e', _⟩ := hp.full bw (by omega)
    rw [e1] at e'
    simp at e'

/-- The service code of a request is where it should be, even if its data does not write what it announced. -/
theorem service_of_serializes {handle : UInt32} {service : UInt8} {p : Path} {data : Option Obj} {bs : Bytes}
    (h : Serializes (rrPacket handle service p data).obj bs) (hd : ∀ d, data = some d → Appends d.serialize) :
    bs.take 2 = [0x6F, 0] ∧ bs[40]? = some service := by
  have h := h ⟨Session.new 0 0 0 0 [], fun _ => ⟨false, [], 0⟩, 0, []⟩
  simp only [serializeToVector] at h
  have hs : ∃ m, m.length = 40 ∧ m.take 2 = [0x6F, 0] ∧
      Starts (rrPacket handle service p data).obj.serialize (m ++ [service]) := by
    have hmr : Starts (MessageRouterRequest.mk service p data).serialize [service] := by
      refine Starts.append (Starts.of_writes (Writes.of_eq (Writes.write8 _) ?_)) (Appends.bind (Appends.path _) ?_)
      · exact le8_eq service
      · cases hd' : data with
        | some d => exact hd d hd'
        | none => exact Appends.pure
    refine ⟨Spec.header (rrPacket handle service p data).header ++ (le32 0 ++ (le16 0 ++ (le16 2 ++
      ((le16 0 ++ le16 0 ++ []) ++ (le16 0xB2 ++ le16 (UInt16.ofNat (MessageRouterRequest.mk service p data).obj.getLength)))))), ?_, ?_, ?_⟩
    · simp [Spec.header]
    · simp only [Spec.header, List.append_assoc]
      rw [List.take_append_of_le_length (by simp), show (rrPacket handle service p data).header.command = 0x6F from rfl]
      decide
    · have hi : Starts (CPFItem.mk 0xB2 (some (MessageRouterRequest.mk service p data).obj)).serialize
          (le16 0xB2 ++ (le16 (UInt16.ofNat (MessageRouterRequest.mk service p data).obj.getLength) ++ [service])) :=
        Starts.after (Writes.write16 _) (Starts.after (Writes.write16 _) hmr)
      have h0 : Writes CPFItem.null.serialize (le16 0 ++ le16 0 ++ []) :=
        Writes.of_eq (CPFItem.writes CPFItem.null (bs := []) rfl) (by decide)
      have := Starts.after (EncapHeader.writes (rrPacket handle service p data).header)
        (Starts.after (Writes.write32 0) (Starts.after (Writes.write16 0) (Starts.after (Writes.write16 2)
          (Starts.after h0 (Starts.append hi Appends.pure)))))
      simp only [List.append_assoc] at this ⊢
      exact this
  obtain ⟨m, hm, h2, hst⟩ := hs
  rcases he : (rrPacket handle service p data).obj.serialize
    (.buffer (BufferWriter.new (List.replicate (rrPacket handle service p data).obj.getLength 0))) with ⟨(x | e | u), w'⟩
  · rw [he] at h
    obtain ⟨bw', extra, rfl, h3⟩ := hst _ w' he
    simp only [Prod.mk.injEq, Res.ok.injEq, and_true] at h
    rw [← h, BufferWriter.memory, h3]
    simp only [BufferWriter.new, List.nil_append, List.append_assoc]
    constructor
    · rw [List.take_append_of_le_length (by omega)]; exact h2
    · rw [List.getElem?_append_right (by omega), hm]
      rfl
  · rw [he] at h; simp at h
  · rw [he] at h; simp at h

/-! ### Bytes of the requests to the connection manager -/

theorem command_prefix (handle : UInt32) (service : UInt8) (segs : List Segment) (data : Bytes) :
    ∃ m, m.length = 40 ∧ m.take 2 = [0x6F, 0] ∧
      command handle service segs data = m ++ ([service] ++ (path false segs ++ data)) := by
  refine ⟨le 2 0x6F ++ le 2 (rrData 0 0 (mrRequest service (path false segs) data)).length ++ le 4 handle.toNat ++ le 4 0 ++
    le 4 0 ++ le 4 0 ++ le 4 0 ++ (le 4 0 ++ le 2 0 ++ (le 2 2 ++ (le 2 0 ++ le 2 0 ++ (le 2 0xB2 ++
      le 2 (mrRequest service (path false segs) data).length)))), by simp, ?_, ?_⟩
  · simp only [List.append_assoc]
    rw [List.take_append_of_le_length (by simp)]
    decide
  · simp [command, request, rrData, cpf, item, mrRequest]

theorem command_service (handle : UInt32) (service : UInt8) (segs : List Segment) (data : Bytes) :
    (command handle service segs data).take 2 = [0x6F, 0] ∧ (command handle service segs data)[40]? = some service := by
  obtain ⟨m, h1, h2, e⟩ := command_prefix handle service segs data
  rw [e]
  constructor
  · rw [List.take_append_of_le_length (by omega)]; exact h2
  · rw [List.getElem?_append_right (by omega), h1]; rfl

theorem manager_body (handle : UInt32) (service : UInt8) (data : Bytes) :
    managerBody service (command handle service [.class' 6, .instance' 1] data) = some data := by
  rw [managerBody, if_pos (command_service ..)]
  obtain ⟨m, h1, h2, e⟩ := command_prefix handle service [.class' 6, .instance' 1] data
  rw [e]
  have : path false [.class' 6, .instance' 1] = [2, 0x20, 6, 0x24, 1] := by decide
  rw [this, ← List.append_assoc, ← List.append_assoc]
  have hl : (m ++ [service] ++ [2, 0x20, 6, 0x24, 1]).length = 46 := by simp [h1]
  rw [List.drop_append_of_le_length (by omega), ← hl, List.drop_length, List.nil_append]

theorem manager_other {service service' : UInt8} (handle : UInt32) (segs : List Segment) (data : Bytes)
    (h : service ≠ service') : managerBody service' (command handle service segs data) = none := by
  rw [managerBody, if_neg]
  rintro ⟨_, h'⟩
  rw [(command_service handle service segs data).2] at h'
  exact h (Option.some.inj h')

/-- The body of the forward open request `createConnection` sends. -/
def openBody (s : Session) (o t : ConnectionInfo) : Bytes :=
  forwardOpenBytes (s.prepareConnection o t).createForwardOpenRequest

theorem openBytes_body (s : Session) (o t : ConnectionInfo) :
    managerBody 0x5B (openBytes s o t) = some (openBody s o t) := manager_body ..

theorem slice {n k : Nat} (a b c : Bytes) (ha : a.length = n) (hb : b.length = k) :
    ((a ++ (b ++ c)).drop n).take k = b := by
  subst ha hb
  rw [List.drop_append_of_le_length (Nat.le_refl _), List.drop_length, List.nil_append,
    List.take_append_of_le_length (Nat.le_refl _), List.take_length]

theorem openBody_fields (s : Session) (o t : ConnectionInfo) :
    oToTOf (openBody s o t) = le 4 s.nextConnectionId.toNat ∧
    tToOOf (openBody s o t) = le 4 (s.nextConnectionId + 1).toNat ∧
    serialOf (openBody s o t) = le 2 s.nextConnectionSn.toNat ∧
    triadOf (openBody s o t) = triad s.nextConnectionSn s.vendorId s.serialNum := by
  generalize hr : (s.prepareConnection o t).createForwardOpenRequest = r
  have e1 : r.oToTConnectionId = s.nextConnectionId := by rw [← hr]; rfl
  have e2 : r.tToOConnectionId = s.nextConnectionId + 1 := by rw [← hr]; rfl
  have e3 : r.connectionSn = s.nextConnectionSn := by rw [← hr]; rfl
  have e4 : r.originatorVendorId = s.vendorId := by rw [← hr]; rfl
  have e5 : r.originatorSn = s.serialNum := by rw [← hr]; rfl
  rw [openBody, hr, forwardOpenBytes, forwardOpen, e1, e2, e3, e4, e5]
  simp only [List.append_assoc]
  refine ⟨?_, ?_, ?_, ?_⟩
  · exact slice [r.timeoutTickSize, r.timeoutTicks] _ _ (by simp) (by simp)
  · have := fun c => slice ([r.timeoutTickSize, r.timeoutTicks] ++ le 4 s.nextConnectionId.toNat)
      (le 4 (s.nextConnectionId + 1).toNat) c (n := 6) (k := 4) (by simp) (by simp)
    simp only [List.append_assoc] at this
    exact this _
  · have := fun c => slice ([r.timeoutTickSize, r.timeoutTicks] ++ le 4 s.nextConnectionId.toNat ++
      le 4 (s.nextConnectionId + 1).toNat) (le 2 s.nextConnectionSn.toNat) c (n := 10) (k := 2) (by simp) (by simp)
    simp only [List.append_assoc] at this
    exact this _
  · have := fun c => slice ([r.timeoutTickSize, r.timeoutTicks] ++ le 4 s.nextConnectionId.toNat ++
      le 4 (s.nextConnectionId + 1).toNat) (triad s.nextConnectionSn s.vendorId s.serialNum) c (n := 10) (k := 8)
      (by simp) (by simp [triad])
    simp only [List.append_assoc, triad] at this ⊢
    exact this _

/-! ### What each call sends and does to the connections -/

theorem requests_of_exchange {bs : Bytes} {evs : List Ev} (h : evs.map call <+: [.send .tcp bs, .receive .tcp]) :
    openRequests evs = [] ∨ openRequests evs = (managerBody 0x5B bs).toList := by
  match evs, h with
  | [], _ => exact Or.inl rfl
  | [e], h =>
    simp only [List.map_cons, List.map_nil, List.cons_prefix_cons, List.nil_prefix, and_true] at h
    cases e with
    | sent s b ok =>
      simp only [call, Call.send.injEq] at h
      obtain ⟨rfl, rfl⟩ := h
      right
      simp only [openRequests, openRequest, List.filterMap_cons, List.filterMap_nil]
      cases managerBody 0x5B b <;> rfl
    | opened => cases h
    | closed => cases h
    | received => cases h
  | [e, e'], h =>
    simp only [List.map_cons, List.map_nil, List.cons_prefix_cons, List.nil_prefix, and_true] at h
    obtain ⟨h, h'⟩ := h
    cases e with
    | sent s b ok =>
      simp only [call, Call.send.injEq] at h
      obtain ⟨rfl, rfl⟩ := h
      cases e' with
      | received s' d ok' =>
        right
        simp only [openRequests, openRequest, List.filterMap_cons, List.filterMap_nil]
        cases managerBody 0x5B b <;> rfl
      | opened => cases h'
      | closed => cases h'
      | sent => cases h'
    | opened => cases h
    | closed => cases h
    | received => cases h
  | e :: e' :: e'' :: es, h =>
    have := h.length_le
    simp at this

/-- How a call other than `createConnection` acts on connections and counters. -/
structure OtherStep (w w' : World) : Prop where
  requests : ∃ evs, w'.trace = w.trace ++ evs ∧ openRequests evs = []
  sn : w'.s.nextConnectionSn = w.s.nextConnectionSn
  id : w'.s.nextConnectionId = w.s.nextConnectionId
  conns : w'.s.connections.Sublist w.s.connections

theorem OtherStep.refl (w : World) : OtherStep w w := ⟨⟨[], by simp, rfl⟩, rfl, rfl, List.Sublist.refl _⟩

theorem OtherStep.of_exchange {w w' : World} {bs : Bytes} (h : Exchange w bs w') (hb : managerBody 0x5B bs = none) :
    OtherStep w w' := by
  obtain ⟨evs, e1, _, e3, _⟩ := h.events
  refine ⟨⟨evs, e1, ?_⟩, by rw [h.keeps], by rw [h.keeps], by rw [h.keeps]; exact List.Sublist.refl _⟩
  rcases requests_of_exchange e3 with h' | h'
  · exact h'
  · rw [h', hb]; rfl

/-- How `createConnection` acts on connections and counters. -/
structure CreateStep (o t : ConnectionInfo) (w w' : World) : Prop where
  sn : w'.s.nextConnectionSn = w.s.nextConnectionSn + 1
  id : w'.s.nextConnectionId = w.s.nextConnectionId + 1 + 1
  vendor : w'.s.vendorId = w.s.vendorId
  serial : w'.s.serialNum = w.s.serialNum
  requests : ∃ evs, w'.trace = w.trace ++ evs ∧
    ((w'.s.connections = w.s.connections ∧ (openRequests evs = [] ∨ openRequests evs = [openBody w.s o t])) ∨
     (∃ c, w'.s.connections = w.s.connections ++ [c] ∧ c.connectionSn = w.s.nextConnectionSn ∧
       c.originatorVendorId = w.s.vendorId ∧ c.originatorSn = w.s.serialNum ∧
       openRequests evs = [openBody w.s o t]))

theorem create_step (o t : ConnectionInfo) (w : World) : CreateStep o t w (Session.createConnection o t w).2 := by
  have cc := create_cases w o t
  generalize Session.createConnection o t w = r at cc ⊢
  have failed : ∀ {w'}, Exchange w.bumped (openBytes w.s o t) w' → CreateStep o t w w' := by
    intro w' ex
    obtain ⟨evs, e1, _, e3, _⟩ := ex.events
    have hr := requests_of_exchange e3
    rw [openBytes_body] at hr
    refine ⟨by rw [ex.keeps]; rfl, by rw [ex.keeps]; rfl, by rw [ex.keeps]; rfl, by rw [ex.keeps]; rfl, evs, e1,
      Or.inl ⟨by rw [ex.keeps]; rfl, hr⟩⟩
  have ex : ∀ {s data}, Works w.env w.clock → Response w.s.sessionId (delivered w.env (w.clock + 1)) s 0 data →
      Exchange w.bumped (openBytes w.s o t) (w.bumped.exchanged (openBytes w.s o t)) := by
    intro s data hw hr
    obtain ⟨resp, rr⟩ := rr_of_response (w := w.bumped) (openBytes w.s o t) hw hr
    exact rr.exchange
  cases cc with
  | thrown e w' rr => exact failed rr.exchange
  | crashed u w' rr => exact failed rr.exchange
  | noData s hw hr => exact failed (ex hw hr)
  | short what s data hw hr => exact failed (ex hw hr)
  | mismatch what s data _ _ _ _ _ _ _ hw hr => exact failed (ex hw hr)
  | created s data oToT tToO oApi tApi hw hr ho =>
    refine ⟨rfl, rfl, rfl, rfl, [.sent .tcp (openBytes w.s o t) true,
      .received .tcp (delivered w.env (w.clock + 1)) true], rfl, Or.inr ⟨_, rfl, rfl, rfl, rfl, ?_⟩⟩
    simp only [openRequests, openRequest, List.filterMap_cons, List.filterMap_nil, openBytes_body]

theorem closeConn_step (n : Nat) (w : World) : OtherStep w (Session.closeConnection n w).2 := by
  cases hn : w.s.connections[n]? with
  | none => rw [closeConn_bad w n hn]; exact OtherStep.refl w
  | some c =>
    have cc := closeConn_cases w n c hn
    generalize Session.closeConnection n w = r at cc ⊢
    have hb : managerBody 0x5B (closeBytes w.s.sessionId c) = none := manager_other _ _ _ (by decide)
    have ex : ∀ {s data}, Works w.env w.clock → Response w.s.sessionId (delivered w.env (w.clock + 1)) s 0 data →
        OtherStep w (w.exchanged (closeBytes w.s.sessionId c)) := by
      intro s data hw hr
      obtain ⟨resp, rr⟩ := rr_of_response (w := w) (closeBytes w.s.sessionId c) hw hr
      exact OtherStep.of_exchange rr.exchange hb
    cases cc with
    | thrown e w' rr => exact OtherStep.of_exchange rr.exchange hb
    | crashed u w' rr => exact OtherStep.of_exchange rr.exchange hb
    | noData s hw hr => exact ex hw hr
    | short what s data hw hr => exact ex hw hr
    | mismatch what s data _ _ _ hw hr => exact ex hw hr
    | closed s data hw hr =>
      have h := ex hw hr
      exact ⟨h.requests, h.sn, h.id, (List.eraseIdx_sublist ..).trans h.conns⟩

theorem other_step (op : Op) (app : OpAppends op) (hn : ∀ o t, op ≠ .createConnection o t) (w : World) :
    OtherStep w (op.run w).2 := by
  cases op with
  | createConnection o t => exact absurd rfl (hn o t)
  | closeConnection n => exact closeConn_step n w
  | «open» h p i =>
    have hc := open_cases h p i w
    have e : Op.run (.open h p i) w = Session.open h p i w := rfl
    rw [e]
    generalize Session.open h p i w = r at hc ⊢
    have hr : managerBody 0x5B registration = none := by decide
    cases hc <;> refine ⟨⟨_, rfl, ?_⟩, rfl, rfl, List.Sublist.refl _⟩ <;>
      simp [openRequests, openRequest, openEvents, hr]
  | close =>
    have hc := close_cases w
    have e : Op.run .close w = Session.close w := rfl
    rw [e]
    generalize Session.close w = r at hc ⊢
    have hr : managerBody 0x5B (request 0x66 w.s.sessionId []) = none := by
      rw [managerBody, if_neg]
      rintro ⟨h, _⟩
      simp only [request, List.append_assoc] at h
      rw [List.take_append_of_le_length (by simp)] at h
      revert h
      decide
    cases hc <;> refine ⟨⟨_, rfl, ?_⟩, rfl, rfl, List.Sublist.refl _⟩ <;>
      simp [openRequests, openRequest, hr]
  | getConnection n => rw [getConnection_world]; exact OtherStep.refl w
  | receiveIOPacket =>
    obtain ⟨ok, s, h, hs⟩ := receiveIO_world w
    rw [h]
    refine ⟨⟨_, rfl, rfl⟩, ?_, ?_, ?_⟩
    · show s.nextConnectionSn = _; rw [hs]
    · show s.nextConnectionId = _; rw [hs]
    · show s.connections.Sublist _; rw [hs]; exact List.Sublist.refl _
  | sendIOPacket p =>
    rcases sendIO_world p w with h | ⟨bs, ok, _, h⟩
    · rw [h]; exact OtherStep.refl w
    · rw [h]; exact ⟨⟨_, rfl, rfl⟩, rfl, rfl, List.Sublist.refl _⟩
  | getAttribute δ c init x y z =>
    have e : (Op.run (.getAttribute δ c init x y z) w).2 =
        (Session.sendRRDataCommand 0x0E (Path.mk3 x y z) none w).2 := by
      simp only [Op.run, getAttr_eq]
      rcases Session.sendRRDataCommand 0x0E (Path.mk3 x y z) none w with ⟨(_ | _ | _), _⟩ <;> rfl
    rw [e]
    exact OtherStep.of_exchange (getAttr_cases x y z w).exchange (manager_other _ _ _ (by decide))
  | setAttribute x y z data =>
    have e : (Op.run (.setAttribute x y z data) w).2 =
        (Session.sendRRDataCommand 0x10 (Path.mk3 x y z) data w).2 := by
      simp only [Op.run, setAttr_eq]
      rcases Session.sendRRDataCommand 0x10 (Path.mk3 x y z) data w with ⟨(_ | _ | _), _⟩ <;> rfl
    rw [e]
    rcases sendRR_total 0x10 (Path.mk3 x y z) data w with ⟨bs, hs, rr⟩ | ⟨ex, h⟩ | ⟨u, h⟩
    · refine OtherStep.of_exchange rr.exchange ?_
      have := service_of_serializes hs (by intro d hd; subst hd; exact app)
      rw [managerBody, if_neg]
      rw [this.2]
      simp
    · rw [h]; exact OtherStep.refl w
    · rw [h]; exact OtherStep.refl w

end Eip
