import Verif.Lemmas.Device
import Verif.Lemmas.Effects
import Verif.Lemmas.Reply
/-
One use of a session with a device at the other end.
-/
namespace Eip
open Spec

/-- A use of the session had the outcome the device prescribes. -/
def Served (d : Device) (u : Use) (rest : List Ev) (d' : Device) (x : Outcome × World) : Prop :=
  ∃ d1, Should d u x.1 d1 ∧ Agree x.2.s d1 ∧ d1.Sound ∧ DeviceTrace d1 rest d'

theorem outcomeOf_runtime {α : Type} (f : α → Outcome) (what : String) :
    outcomeOf f (.throw (runtimeError what)) = .refused := rfl

theorem Spec.Device.Sound.store {d : Device} (h : d.Sound) {x y z : UInt8} {bs : Bytes} (hw : d.writable x y z bs = true) :
    (d.store x y z bs).Sound := by
  refine ⟨fun x' y' z' => ?_, h.writes, h.names⟩
  rw [Device.store]
  dsimp only
  split
  · intro e
    cases e
    rw [h.writes] at hw
    cases hw
  · exact h.nonempty x' y' z'

theorem Spec.Agree.exchanged {w : World} {d : Device} (h : Agree w.s d) (bs : Bytes) : Agree (w.exchanged bs).s d :=
  ⟨h.handle, h.conns⟩

theorem read_served {w : World} {d d' : Device} {x y z : UInt8} {evs rest : List Ev} (ag : Agree w.s d) (so : d.Sound)
    (ht : ((Use.read x y z).run w).2.trace = w.trace ++ evs) (dt : DeviceTrace d (evs ++ rest) d') :
    Served d (.read x y z) rest d' ((Use.read x y z).run w) := by
  have rr := getAttr_cases x y z w
  rw [ag.handle] at rr
  rw [Use.run, getAttr_eq] at ht ⊢
  rcases hres : Session.sendRRDataCommand 0x0E (Path.mk3 x y z) none w with ⟨r, w1⟩
  rw [hres] at rr ht
  have ht' : w1.trace = w.trace ++ evs := by
    rw [← ht]
    rcases r with r | e | u
    · rfl
    · rfl
    · rfl
  obtain ⟨rfl, out, d1, sv, more⟩ := rr.served ag.handle ht' dt
  obtain ⟨rfl, ⟨h0, hp⟩ | ⟨hd, v, hv, hr⟩ | ⟨hv, status, data, bad, hr⟩⟩ := serves_read sv
  · rw [h0] at out
    obtain ⟨what, rfl⟩ := out.of_zero hp
    exact ⟨d1, .readRefused _ _ _ (.inl h0), ag.exchanged _, so, more⟩
  · obtain ⟨base, a, rfl⟩ := out.of_response hr
    have hne : v ≠ [] := fun e => so.nonempty x y z (e ▸ hv)
    have e := getResponseDataAs_buffer SerializableBuffer.cls rfl base 0x8E 0 (rawData a) hne ⟨[]⟩
    dsimp only
    rw [e]
    exact ⟨d1, .read _ _ _ v hd hv, ag.exchanged _, so, more⟩
  · obtain ⟨what, rfl⟩ := out.of_status hr bad
    exact ⟨d1, .readRefused _ _ _ (.inr hv), ag.exchanged _, so, more⟩

theorem write_served {w : World} {d d' : Device} {x y z : UInt8} {o : Obj} {bs : Bytes} {evs rest : List Ev}
    (ag : Agree w.s d) (so : d.Sound) (enc : Encodes o bs)
    (ht : ((Use.write x y z o bs).run w).2.trace = w.trace ++ evs) (dt : DeviceTrace d (evs ++ rest) d') :
    Served d (.write x y z o bs) rest d' ((Use.write x y z o bs).run w) := by
  have rr := setAttr_cases x y z (data := some o) (bs := bs) enc w
  rw [ag.handle] at rr
  rw [Use.run, setAttr_eq] at ht ⊢
  rcases hres : Session.sendRRDataCommand 0x10 (Path.mk3 x y z) (some o) w with ⟨r, w1⟩
  rw [hres] at rr ht
  have ht' : w1.trace = w.trace ++ evs := by
    rw [← ht]
    rcases r with r | e | u <;> rfl
  obtain ⟨rfl, out, d1, sv, more⟩ := rr.served ag.handle ht' dt
  rcases serves_write sv with ⟨rfl, h0, hp⟩ | ⟨rfl, hd, hw, data, hr⟩ | ⟨rfl, hw, status, data, bad, hr⟩
  · rw [h0] at out
    obtain ⟨what, rfl⟩ := out.of_zero hp
    exact ⟨d1, .writeRefused _ _ _ _ _ (.inl h0), ag.exchanged _, so, more⟩
  · obtain ⟨base, a, rfl⟩ := out.of_response hr
    exact ⟨_, .written _ _ _ _ _ hd hw, ⟨ag.handle, ag.conns⟩, so.store hw, more⟩
  · obtain ⟨what, rfl⟩ := out.of_status hr bad
    exact ⟨d1, .writeRefused _ _ _ _ _ (.inr hw), ag.exchanged _, so, more⟩

/-! ### Connections -/

theorem triad_inj {a b a' b' : UInt16} {c c' : UInt32} (h : triad a b c = triad a' b' c') : a = a' ∧ b = b' ∧ c = c' := by
  rw [triad, triad] at h
  have h1 := List.append_inj h (by simp)
  have h2 := List.append_inj h1.1 (by simp)
  exact ⟨le2_inj h2.1, le2_inj h2.2, le4_inj h1.2⟩

theorem OpenReply.ne_nil {data : Bytes} {o t : UInt32} {sn v : UInt16} {g a b : UInt32} (h : OpenReply data o t sn v g a b) :
    data ≠ [] := by
  obtain ⟨k, r, app, tail, _, e⟩ := h
  intro h0
  have := congrArg List.length (h0 ▸ e)
  simp [forwardOpenReply] at this

theorem CloseReply.ne_nil {data : Bytes} {sn v : UInt16} {g : UInt32} (h : CloseReply data sn v g) : data ≠ [] := by
  obtain ⟨k, r, app, tail, _, e⟩ := h
  intro h0
  have := congrArg List.length (h0 ▸ e)
  simp [forwardCloseReply] at this

theorem Response.no_session {reply data : Bytes} {s status : UInt8} (h : Response 0 reply s status data)
    (hp : Packet reply 0x006F 0 []) : False := by
  obtain ⟨p, _, ⟨handle, hp', ha⟩, _⟩ := h
  obtain ⟨_, rfl, _⟩ := Packet.unique hp hp'
  rcases ha with ⟨_, h⟩ | ⟨h, _⟩ <;> exact h rfl

/-- The device has granted a connection. -/
def Grants (d d1 : Device) (body data : Bytes) : Prop :=
  d.handle ≠ 0 ∧ ∃ c oApi tApi, d1 = { d with conns := d.conns ++ [c] } ∧ triadOf body = c.name ∧
    d.grants body = true ∧ (∀ c' ∈ d.conns, c'.name ≠ c.name) ∧
    OpenReply data c.oToT c.tToO c.sn c.vendor c.originator oApi tApi

theorem connect_ok {d d1 : Device} {body reply data : Bytes} {s : UInt8} (sv : Serves d (openFrame d.handle body) reply d1)
    (hr : Response d.handle reply s 0 data) : Grants d d1 body data := by
  rcases serves_connect sv with ⟨rfl, h0, hp⟩ | ⟨hd, c, data', oApi, tApi, e, hn, hg, new, hr', ho⟩ |
    ⟨rfl, hg, status, data', bad, hr'⟩
  · rw [h0] at hr
    exact (Response.no_session hr hp).elim
  · obtain ⟨_, _, rfl⟩ := Response.unique hr hr'
    exact ⟨hd, c, oApi, tApi, e, hn, hg, new, ho⟩
  · exact absurd (Response.unique hr hr').2.1.symm bad

theorem connect_out {d d1 : Device} {body reply : Bytes} {r : Res RRDataResponse}
    (sv : Serves d (openFrame d.handle body) reply d1) (out : RROutcome d.handle reply r) :
    (∃ what, r = .throw (runtimeError what) ∧ d1 = d ∧
      (d.handle = 0 ∨ d.grants body = false ∨ ∃ c ∈ d.conns, c.name = triadOf body)) ∨ ∃ a, r = .ok a := by
  rcases serves_connect sv with ⟨rfl, h0, hp⟩ | ⟨hd, c, data, oApi, tApi, e, hn, hg, new, hr, ho⟩ |
    ⟨rfl, hg, status, data, bad, hr⟩
  · rw [h0] at out
    obtain ⟨what, rfl⟩ := out.of_zero hp
    exact .inl ⟨what, rfl, rfl, .inl h0⟩
  · obtain ⟨base, a, rfl⟩ := out.of_response hr
    exact .inr ⟨_, rfl⟩
  · obtain ⟨what, rfl⟩ := out.of_status hr bad
    exact .inl ⟨what, rfl, rfl, .inr hg⟩

theorem connect_number {n : Nat} (h : n < 2147483648) : sizeToInt (sizeSub (n + 1) 1) = n := by
  rw [sizeSub_of_le (by omega) (by omega), Nat.add_sub_cancel, sizeToInt_small h]

theorem exchanged_trace {w : World} {bs : Bytes} {evs rest : List Ev} {d d' : Device}
    (ht : (w.exchanged bs).trace = w.trace ++ evs) (dt : DeviceTrace d (evs ++ rest) d') :
    ∃ d1, Serves d bs (delivered w.env (w.clock + 1)) d1 ∧ DeviceTrace d1 rest d' := by
  have : evs = [.sent .tcp bs true, .received .tcp (delivered w.env (w.clock + 1)) true] :=
    (List.append_cancel_left ht).symm
  subst this
  exact dt.exchange_inv.2

theorem connect_served {w : World} {d d' : Device} {o t : ConnectionInfo} {evs rest : List Ev}
    (ag : Agree w.s d) (so : d.Sound) (few : w.s.connections.length < 2147483648)
    (ht : ((Use.connect o t).run w).2.trace = w.trace ++ evs) (dt : DeviceTrace d (evs ++ rest) d') :
    Served d (.connect o t) rest d' ((Use.connect o t).run w) := by
  have cc := create_cases w o t
  rw [Use.run] at ht ⊢
  have frame : openBytes w.s o t = openFrame d.handle (openBody w.s o t) := by rw [← ag.handle]; rfl
  have triadE := (openBody_fields w.s o t).2.2.2
  generalize Session.createConnection o t w = x at cc ht
  cases cc with
  | thrown e w' rr =>
    obtain ⟨rfl, out, d1, sv, more⟩ := rr.served (w := w.bumped) ag.handle ht dt
    rw [frame] at sv
    rcases connect_out sv out with ⟨what, h, rfl, why⟩ | ⟨a, h⟩
    · cases h
      exact ⟨d1, .connectRefused _ _ _ why, ⟨ag.handle, ag.conns⟩, so, more⟩
    · cases h
  | crashed u w' rr =>
    obtain ⟨rfl, out, d1, sv, more⟩ := rr.served (w := w.bumped) ag.handle ht dt
    rw [frame] at sv
    rcases connect_out sv out with ⟨what, h, rfl, why⟩ | ⟨a, h⟩ <;> cases h
  | noData s hw hr =>
    obtain ⟨d1, sv, more⟩ := exchanged_trace (w := w.bumped) ht dt
    rw [frame] at sv
    rw [ag.handle] at hr
    obtain ⟨_, c, _, _, _, _, _, _, ho⟩ := connect_ok sv hr
    exact absurd rfl (OpenReply.ne_nil ho)
  | short what s data hw hr hne hn =>
    obtain ⟨d1, sv, more⟩ := exchanged_trace (w := w.bumped) ht dt
    rw [frame] at sv
    rw [ag.handle] at hr
    obtain ⟨_, c, _, _, _, _, _, _, ho⟩ := connect_ok sv hr
    exact absurd ⟨_, _, _, _, _, _, _, ho⟩ hn
  | mismatch what s data oToT tToO sn vendor originator oApi tApi hw hr hrep hm =>
    obtain ⟨d1, sv, more⟩ := exchanged_trace (w := w.bumped) ht dt
    rw [frame] at sv
    rw [ag.handle] at hr
    obtain ⟨_, c, _, _, _, hn, _, _, ho⟩ := connect_ok sv hr
    obtain ⟨_, _, rfl, rfl, rfl, _⟩ := OpenReply.unique hrep ho
    rw [triadE] at hn
    obtain ⟨h1, h2, h3⟩ := triad_inj hn
    exact absurd ⟨h1.symm, h2.symm, h3.symm⟩ hm
  | created s data oToT tToO oApi tApi hw hr hrep =>
    obtain ⟨d1, sv, more⟩ := exchanged_trace (w := w.bumped) ht dt
    rw [frame] at sv
    rw [ag.handle] at hr
    obtain ⟨hd, c, _, _, rfl, hn, hg, new, ho⟩ := connect_ok sv hr
    obtain ⟨h1, h2, h3, h4, h5, _⟩ := OpenReply.unique hrep ho
    refine ⟨{ d with conns := d.conns ++ [c] }, ?_, ⟨ag.handle, ?_⟩, ⟨so.nonempty, so.writes, ?_⟩, more⟩
    · have hlen : w.s.connections.length = d.conns.length := by rw [← ag.conns, List.length_map]
      have e : (Prod.map (outcomeOf Outcome.number) id
        ((.ok (sizeToInt (sizeSub (w.s.connections.length + 1) 1)),
        (w.bumped.exchanged (openBytes w.s o t)).addConnection (w.s.opened o t oToT tToO oApi tApi)) :
          Res Int × World)).1 = .number d.conns.length := by
        show Outcome.number _ = _
        rw [connect_number few, hlen]
      rw [e]
      exact .connected _ _ _ c hd hg hn new
    · show (w.s.connections ++ [w.s.opened o t oToT tToO oApi tApi]).map viewOf = d.conns ++ [c]
      rw [List.map_append, ag.conns]
      congr 1
      show [DeviceConn.mk oToT tToO w.s.nextConnectionSn w.s.vendorId w.s.serialNum] = [c]
      rw [h1, h2, h3, h4, h5]
    · show ((d.conns ++ [c]).map DeviceConn.name).Nodup
      rw [List.map_append, List.nodup_append]
      refine ⟨so.names, by simp, ?_⟩
      intro a ha b hb e
      obtain ⟨c', hc', rfl⟩ := List.mem_map.mp ha
      simp only [List.map_cons, List.map_nil, List.mem_singleton] at hb
      exact new c' hc' (e.trans hb)

/-! ### Closing connections -/

theorem closeBytes_frame (id : UInt32) (c : Connection) : ∃ body, closeBytes id c = closeFrame id body ∧
    (body.drop 2).take 8 = (viewOf c).name := by
  refine ⟨_, rfl, ?_⟩
  have := slice [c.timeoutTickSize, c.timeoutTicks] (triad c.connectionSn c.originatorVendorId c.originatorSn)
    (path true [.class' 2, .instance' 1]) (n := 2) (k := 8) rfl (by simp [triad])
  rw [forwardClose]
  simp only [List.append_assoc, triad] at this ⊢
  exact this

/-- The device has closed a connection. -/
def Closes (d d1 : Device) (body data : Bytes) : Prop :=
  d.handle ≠ 0 ∧ ∃ c, d1 = { d with conns := d.conns.erase c } ∧ c ∈ d.conns ∧ (body.drop 2).take 8 = c.name ∧
    CloseReply data c.sn c.vendor c.originator

theorem disconnect_ok {d d1 : Device} {body reply data : Bytes} {s : UInt8}
    (sv : Serves d (closeFrame d.handle body) reply d1) (hr : Response d.handle reply s 0 data)
    (known : ∃ c ∈ d.conns, c.name = (body.drop 2).take 8) : Closes d d1 body data := by
  rcases serves_disconnect sv with ⟨rfl, h0, hp⟩ | ⟨hd, c, data', e, hc, hn, hr', ho⟩ | ⟨rfl, hd, hn⟩
  · rw [h0] at hr
    exact (Response.no_session hr hp).elim
  · obtain ⟨_, _, rfl⟩ := Response.unique hr hr'
    exact ⟨hd, c, e, hc, hn, ho⟩
  · obtain ⟨c, hc, e⟩ := known
    exact absurd e (hn c hc)

theorem disconnect_out {d d1 : Device} {body reply : Bytes} {r : Res RRDataResponse}
    (sv : Serves d (closeFrame d.handle body) reply d1) (out : RROutcome d.handle reply r)
    (known : ∃ c ∈ d.conns, c.name = (body.drop 2).take 8) :
    (∃ what, r = .throw (runtimeError what) ∧ d1 = d ∧ d.handle = 0) ∨ ∃ a, r = .ok a := by
  rcases serves_disconnect sv with ⟨rfl, h0, hp⟩ | ⟨hd, c, data', e, hc, hn, hr', ho⟩ | ⟨rfl, hd, hn⟩
  · rw [h0] at out
    obtain ⟨what, rfl⟩ := out.of_zero hp
    exact .inl ⟨what, rfl, rfl, h0⟩
  · obtain ⟨base, a, rfl⟩ := out.of_response hr'
    exact .inr ⟨_, rfl⟩
  · obtain ⟨c, hc, e⟩ := known
    exact absurd e (hn c hc)

theorem same_name {l : List DeviceConn} (h : (l.map DeviceConn.name).Nodup) {a b : DeviceConn} (ha : a ∈ l) (hb : b ∈ l)
    (e : a.name = b.name) : a = b := by
  induction l with
  | nil => cases ha
  | cons x l ih =>
    rw [List.map_cons, List.nodup_cons] at h
    rcases List.mem_cons.mp ha with rfl | ha' <;> rcases List.mem_cons.mp hb with rfl | hb'
    · rfl
    · exact absurd (e ▸ List.mem_map_of_mem hb') h.1
    · exact absurd (e ▸ List.mem_map_of_mem ha') h.1
    · exact ih h.2 ha' hb'

theorem erase_at {l : List DeviceConn} (h : (l.map DeviceConn.name).Nodup) {n : Nat} {c : DeviceConn} (hc : l[n]? = some c) :
    l.erase c = l.eraseIdx n := by
  induction l generalizing n with
  | nil => rfl
  | cons x l ih =>
    rw [List.map_cons, List.nodup_cons] at h
    cases n with
    | zero =>
      simp only [List.getElem?_cons_zero, Option.some.injEq] at hc
      subst hc
      simp
    | succ n =>
      simp only [List.getElem?_cons_succ] at hc
      have hm : c ∈ l := List.mem_of_getElem? hc
      have hne : x ≠ c := fun e => h.1 (e ▸ List.mem_map_of_mem hm)
      rw [List.erase_cons_tail (by simpa using hne), ih h.2 hc]
      rfl

theorem map_eraseIdx {α β : Type} (f : α → β) (l : List α) (n : Nat) : (l.eraseIdx n).map f = (l.map f).eraseIdx n := by
  induction l generalizing n with
  | nil => rfl
  | cons x l ih =>
    cases n with
    | zero => rfl
    | succ n => simp [ih]

theorem disconnect_served {w : World} {d d' : Device} {n : Nat} {evs rest : List Ev}
    (ag : Agree w.s d) (so : d.Sound) (hn : n < w.s.connections.length)
    (ht : ((Use.disconnect n).run w).2.trace = w.trace ++ evs) (dt : DeviceTrace d (evs ++ rest) d') :
    Served d (.disconnect n) rest d' ((Use.disconnect n).run w) := by
  have hc : w.s.connections[n]? = some w.s.connections[n] := List.getElem?_eq_getElem hn
  generalize w.s.connections[n] = c at hc
  have cc := closeConn_cases w n c hc
  rw [Use.run] at ht ⊢
  obtain ⟨body, frame, name⟩ := closeBytes_frame w.s.sessionId c
  have frame : closeBytes w.s.sessionId c = closeFrame d.handle body := by rw [frame, ag.handle]
  have hv : d.conns[n]? = some (viewOf c) := by rw [← ag.conns, List.getElem?_map, hc]; rfl
  have known : ∃ c ∈ d.conns, c.name = (body.drop 2).take 8 := ⟨viewOf c, List.mem_of_getElem? hv, name.symm⟩
  have same : ∀ c' ∈ d.conns, (body.drop 2).take 8 = c'.name → c' = viewOf c := fun c' h e =>
    same_name so.names h (List.mem_of_getElem? hv) (e.symm.trans name)
  generalize Session.closeConnection n w = x at cc ht
  cases cc with
  | thrown e w' rr =>
    obtain ⟨rfl, out, d1, sv, more⟩ := rr.served ag.handle ht dt
    rw [frame] at sv
    rcases disconnect_out sv out known with ⟨what, h, rfl, why⟩ | ⟨a, h⟩
    · cases h
      exact ⟨d1, .disconnectRefused _ why, ⟨ag.handle, ag.conns⟩, so, more⟩
    · cases h
  | crashed u w' rr =>
    obtain ⟨rfl, out, d1, sv, more⟩ := rr.served ag.handle ht dt
    rw [frame] at sv
    rcases disconnect_out sv out known with ⟨what, h, rfl, why⟩ | ⟨a, h⟩ <;> cases h
  | noData s hw hr =>
    rw [ag.handle] at hr
    obtain ⟨d1, sv, more⟩ := exchanged_trace ht dt
    rw [frame] at sv
    obtain ⟨_, c, _, _, _, ho⟩ := disconnect_ok sv hr known
    exact absurd rfl (CloseReply.ne_nil ho)
  | short what s data hw hr hne hnn =>
    rw [ag.handle] at hr
    obtain ⟨d1, sv, more⟩ := exchanged_trace ht dt
    rw [frame] at sv
    obtain ⟨_, c, _, _, _, ho⟩ := disconnect_ok sv hr known
    exact absurd ⟨_, _, _, ho⟩ hnn
  | mismatch what s data sn vendor originator hw hr hrep hm =>
    rw [ag.handle] at hr
    obtain ⟨d1, sv, more⟩ := exchanged_trace ht dt
    rw [frame] at sv
    obtain ⟨_, c', _, hc', hnm, ho⟩ := disconnect_ok sv hr known
    obtain rfl := same c' hc' hnm
    obtain ⟨rfl, rfl, rfl⟩ := CloseReply.unique hrep ho
    exact absurd ⟨rfl, rfl, rfl⟩ hm
  | closed s data hw hr hrep =>
    rw [ag.handle] at hr
    obtain ⟨d1, sv, more⟩ := exchanged_trace ht dt
    rw [frame] at sv
    obtain ⟨hd, c', rfl, hc', hnm, ho⟩ := disconnect_ok sv hr known
    obtain rfl := same c' hc' hnm
    rw [erase_at so.names hv] at more
    refine ⟨{ d with conns := d.conns.eraseIdx n }, .disconnected n hd ?_, ⟨ag.handle, ?_⟩, ⟨so.nonempty, so.writes, ?_⟩, more⟩
    · rw [← ag.conns, List.length_map]; exact hn
    · show (w.s.connections.eraseIdx n).map viewOf = d.conns.eraseIdx n
      rw [← ag.conns, map_eraseIdx]
    · show ((d.conns.eraseIdx n).map DeviceConn.name).Nodup
      rw [map_eraseIdx]
      exact so.names.sublist (List.eraseIdx_sublist ..)

/-! ### Opening and closing the session -/

theorem open_served {w : World} {d d' : Device} {host port ioPort : String} {evs rest : List Ev}
    (ag : Agree w.s d) (so : d.Sound) (new : w.s.sessionId = 0)
    (ht : ((Use.open host port ioPort).run w).2.trace = w.trace ++ evs) (dt : DeviceTrace d (evs ++ rest) d') :
    Served d (.open host port ioPort) rest d' ((Use.open host port ioPort).run w) := by
  have cc := open_cases host port ioPort w
  have free : d.handle = 0 := ag.handle.symm.trans new
  rw [Use.run] at ht ⊢
  generalize Session.open host port ioPort w = x at cc ht
  have reply : ∀ {more : List Ev}, (w.replied host port ioPort more).trace = w.trace ++ evs → ∃ d1,
      Serves d registration (delivered w.env (w.clock + 3)) d1 ∧ DeviceTrace d1 (more ++ rest) d' := by
    intro more ht
    have : evs = openEvents host port ioPort (delivered w.env (w.clock + 3)) ++ more := (List.append_cancel_left ht).symm
    rw [this, List.append_assoc] at dt
    exact dt.opened_inv.2.opened_inv.2.exchange_inv.2
  cases cc with
  | tcpFails h =>
    rw [← List.append_cancel_left ht] at dt
    exact absurd dt.opened_inv.1 (by decide)
  | ioFails h h1 =>
    rw [← List.append_cancel_left ht] at dt
    exact absurd dt.opened_inv.2.opened_inv.1 (by decide)
  | sendFails h h1 h2 =>
    rw [← List.append_cancel_left ht] at dt
    exact absurd dt.opened_inv.2.opened_inv.2.sent_inv.1 (by decide)
  | receiveFails h h1 h2 h3 =>
    rw [← List.append_cancel_left ht] at dt
    exact absurd dt.opened_inv.2.opened_inv.2.exchange_inv.1 (by decide)
  | registered handle h hr =>
    obtain ⟨d1, sv, more⟩ := reply (more := []) ht
    obtain ⟨payload, hp, acc, _⟩ := hr
    rcases serves_register free sv with ⟨handle', nz, rfl, hp'⟩ | ⟨rfl, payload', hp'⟩
    · obtain ⟨_, rfl, _⟩ := Packet.unique hp hp'
      exact ⟨{ d with handle := handle }, .opened _ _ _ handle free nz, ⟨rfl, ag.conns⟩,
        ⟨so.nonempty, so.writes, so.names⟩, more⟩
    · obtain ⟨_, rfl, _⟩ := Packet.unique hp hp'
      rcases acc with ⟨_, h⟩ | ⟨h, _⟩
      · exact absurd rfl h
      · exact absurd new h
  | hollow h hr =>
    obtain ⟨d1, sv, more⟩ := reply (more := []) ht
    obtain ⟨handle, hp, acc⟩ := hr
    rcases serves_register free sv with ⟨handle', nz, rfl, hp'⟩ | ⟨rfl, payload', hp'⟩
    · have e := (Packet.unique hp hp').2.2
      exact absurd e (by decide)
    · obtain ⟨_, rfl, _⟩ := Packet.unique hp hp'
      rcases acc with ⟨_, h⟩ | ⟨h, _⟩
      · exact absurd rfl h
      · exact absurd new h
  | rejected what h hc h1 h2 =>
    obtain ⟨d1, sv, more⟩ := reply ht
    rcases serves_register free sv with ⟨handle', nz, rfl, hp'⟩ | ⟨rfl, payload', hp'⟩
    · exact absurd ⟨handle', _, hp', .inl ⟨new, nz⟩, by decide, .inr (by decide)⟩ h1
    · exact ⟨d1, .openRefused _ _ _, ⟨ag.handle, ag.conns⟩, so, more.closed_inv.2.closed_inv.2⟩
  | tcpCloseFails h hc h1 h2 =>
    obtain ⟨d1, sv, more⟩ := reply ht
    exact absurd more.closed_inv.1 (by decide)
  | ioCloseFails h hc hc' h1 h2 =>
    obtain ⟨d1, sv, more⟩ := reply ht
    exact absurd more.closed_inv.2.closed_inv.1 (by decide)

theorem close_served {w : World} {d d' : Device} {evs rest : List Ev}
    (ag : Agree w.s d) (so : d.Sound) (none : w.s.connections = [])
    (ht : (Use.close.run w).2.trace = w.trace ++ evs) (dt : DeviceTrace d (evs ++ rest) d') :
    Served d .close rest d' (Use.close.run w) := by
  have cc := close_cases w
  rw [Use.run] at ht ⊢
  generalize Session.close w = x at cc ht
  cases cc with
  | sendFails h =>
    rw [← List.append_cancel_left ht, ag.handle] at dt
    exact absurd dt.sent_inv.1 (by decide)
  | tcpFails h h1 =>
    rw [← List.append_cancel_left ht, ag.handle] at dt
    exact absurd dt.unregister_inv.2.1 (by decide)
  | ioFails h h1 h2 =>
    rw [← List.append_cancel_left ht, ag.handle] at dt
    exact absurd dt.unregister_inv.2.2.closed_inv.1 (by decide)
  | closed h h1 h2 =>
    rw [← List.append_cancel_left ht, ag.handle] at dt
    refine ⟨{ d with handle := 0, conns := [] }, .closed, ⟨rfl, ?_⟩, ⟨so.nonempty, so.writes, by simp⟩,
      dt.unregister_inv.2.2.closed_inv.2⟩
    show w.s.connections.map viewOf = []
    rw [none]
    rfl

/-! ### IO -/

theorem sendIO_served {w : World} {d d' : Device} {pkt : CPFPacket} {evs rest : List Ev} (ag : Agree w.s d) (so : d.Sound)
    (ht : ((Use.sendIO pkt).run w).2.trace = w.trace ++ evs) (dt : DeviceTrace d (evs ++ rest) d') :
    Served d (.sendIO pkt) rest d' ((Use.sendIO pkt).run w) := by
  have e : ((Use.sendIO pkt).run w).2 = (Op.run (.sendIOPacket pkt) w).2 := rfl
  rw [e] at ht
  rw [Served, e]
  rcases sendIO_world pkt w with h | ⟨bs, ok, _, h⟩ <;> rw [h] at ht ⊢
  · have : evs = [] := by simpa using ht
    subst this
    exact ⟨d, .sendIO _ _, ag, so, dt⟩
  · rw [← List.append_cancel_left ht] at dt
    cases dt with
    | ioSent _ _ more => exact ⟨d, .sendIO _ _, ⟨ag.handle, ag.conns⟩, so, more⟩

theorem receiveIO_served {w : World} {d d' : Device} {evs rest : List Ev} (ag : Agree w.s d) (so : d.Sound)
    (ht : (Use.receiveIO.run w).2.trace = w.trace ++ evs) (dt : DeviceTrace d (evs ++ rest) d') :
    Served d .receiveIO rest d' (Use.receiveIO.run w) := by
  have e : (Use.receiveIO.run w).2 = (Op.run .receiveIOPacket w).2 := by
    have e2 : Op.run .receiveIOPacket w = Session.receiveIOPacket.forget w := rfl
    rw [e2, forget_eq, Use.run]
    rcases Session.receiveIOPacket w with ⟨(_ | _ | _), _⟩ <;> rfl
  rw [e] at ht
  rw [Served, e]
  obtain ⟨ok, s, h, hs⟩ := receiveIO_world w
  rw [h] at ht ⊢
  rw [← List.append_cancel_left ht] at dt
  cases dt with
  | ioReceived _ _ more =>
    refine ⟨d, .receiveIO _, ?_, so, more⟩
    show Agree s d
    rw [hs]
    exact ⟨ag.handle, ag.conns⟩

/-! ### Any use -/

theorem use_served {w : World} {d d' : Device} {u : Use} {evs rest : List Ev} (ag : Agree w.s d) (so : d.Sound)
    (tidy : u.Tidy w) (ht : (u.run w).2.trace = w.trace ++ evs) (dt : DeviceTrace d (evs ++ rest) d') :
    Served d u rest d' (u.run w) := by
  cases u with
  | «open» host port ioPort => exact open_served ag so tidy ht dt
  | close => exact close_served ag so tidy ht dt
  | read x y z => exact read_served ag so ht dt
  | write x y z o bs => exact write_served ag so tidy ht dt
  | connect o t => exact connect_served ag so tidy ht dt
  | disconnect n => exact disconnect_served ag so tidy ht dt
  | sendIO pkt => exact sendIO_served ag so ht dt
  | receiveIO => exact receiveIO_served ag so ht dt

/-- The call behind a use. -/
def Spec.Use.op : Use → Op
  | .open h p i => .open h p i
  | .close => .close
  | .read x y z => .getAttribute SerializableBuffer SerializableBuffer.cls ⟨[]⟩ x y z
  | .write x y z o _ => .setAttribute x y z (some o)
  | .connect o t => .createConnection o t
  | .disconnect n => .closeConnection n
  | .sendIO p => .sendIOPacket p
  | .receiveIO => .receiveIOPacket

theorem use_op (u : Use) (w : World) : (u.run w).2 = (u.op.run w).2 := by
  cases u with
  | connect o t =>
    rw [Use.run, Use.op, Op.run, forget_eq]
    rcases Session.createConnection o t w with ⟨(_ | _ | _), _⟩ <;> rfl
  | receiveIO =>
    rw [Use.run, Use.op, Op.run, forget_eq]
    rcases Session.receiveIOPacket w with ⟨(_ | _ | _), _⟩ <;> rfl
  | «open» h p i => rw [Use.run, Use.op, Op.run]; rfl
  | close => rw [Use.run, Use.op, Op.run]; rfl
  | read x y z => rw [Use.run, Use.op, Op.run]
  | write x y z o bs => rw [Use.run, Use.op, Op.run]; rfl
  | disconnect n => rw [Use.run, Use.op, Op.run]; rfl
  | sendIO pkt => rw [Use.run, Use.op, Op.run]; rfl

theorem use_events (u : Use) (w : World) : ∃ evs, (u.run w).2.trace = w.trace ++ evs := by
  rw [use_op]
  obtain ⟨evs, h, _⟩ := (op_effect u.op w).events
  exact ⟨evs, h⟩

theorem uses_events (us : List Use) (w : World) : ∃ evs, (runUses us w).2.trace = w.trace ++ evs := by
  induction us generalizing w with
  | nil => exact ⟨[], by simp [runUses]⟩
  | cons u us ih =>
    obtain ⟨e1, h1⟩ := use_events u w
    obtain ⟨e2, h2⟩ := ih (u.run w).2
    exact ⟨e1 ++ e2, by rw [← List.append_assoc, ← h1, ← h2]; rfl⟩

theorem uses_served (us : List Use) {w : World} {d d' : Device} {evs rest : List Ev} (ag : Agree w.s d) (so : d.Sound)
    (tidy : TidyUses us w) (ht : (runUses us w).2.trace = w.trace ++ evs) (dt : DeviceTrace d (evs ++ rest) d') :
    ∃ d1, ShouldAll d (runUses us w).1 d1 ∧ Agree (runUses us w).2.s d1 ∧ d1.Sound ∧ DeviceTrace d1 rest d' := by
  induction us generalizing w d evs with
  | nil =>
    have : evs = [] := by
      have : w.trace = w.trace ++ evs := ht
      simpa using this
    subst this
    exact ⟨d, .nil d, ag, so, dt⟩
  | cons u us ih =>
    obtain ⟨e1, h1⟩ := use_events u w
    obtain ⟨e2, h2⟩ := uses_events us (u.run w).2
    have he : evs = e1 ++ e2 := by
      have : (runUses us (u.run w).2).2.trace = w.trace ++ evs := ht
      rw [h2, h1, List.append_assoc] at this
      exact (List.append_cancel_left this).symm
    rw [he, List.append_assoc] at dt
    obtain ⟨d1, s1, a1, so1, dt1⟩ := use_served ag so tidy.1 h1 dt
    obtain ⟨d2, s2, a2, so2, dt2⟩ := ih a1 so1 tidy.2 h2 dt1
    exact ⟨d2, .cons s1 s2, a2, so2, dt2⟩

end Eip
