import Verif.Lemmas.Appends
import Verif.Lemmas.Effects
/-
What each call on a session sends.
-/
namespace Eip
open Spec

/-- The messages a call may send. -/
inductive Sends (w : World) : Op → Sock → Bytes → Prop
  | registration (h p i : String) : Sends w (.open h p i) .tcp registration
  | unregister : Sends w .close .tcp (request 0x66 w.s.sessionId [])
  | get (δ : Type) (c : Class δ) (init : δ) (x y z : UInt8) :
      Sends w (.getAttribute δ c init x y z) .tcp
        (command w.s.sessionId 0x0E [.class' x, .instance' y, .attribute z] [])
  | set (x y z : UInt8) (data : Option Obj) (bs : Bytes)
      (h : Serializes (rrPacket w.s.sessionId 0x10 (Path.mk3 x y z) data).obj bs) :
      Sends w (.setAttribute x y z data) .tcp bs
  | create (o t : ConnectionInfo) : Sends w (.createConnection o t) .tcp (openBytes w.s o t)
  | closeConn (n : Nat) (c : Connection) (h : w.s.connections[n]? = some c) :
      Sends w (.closeConnection n) .tcp (closeBytes w.s.sessionId c)
  | io (p : CPFPacket) (bs : Bytes) (h : Serializes p.obj bs) : Sends w (.sendIOPacket p) .io bs

theorem exchange_sends {w w' : World} {bs : Bytes} (hx : Exchange w bs w') {evs : List Ev}
    (new : w'.trace = w.trace ++ evs) {s : Sock} {bytes : Bytes} {ok : Bool} (sent : .sent s bytes ok ∈ evs) :
    s = .tcp ∧ bytes = bs := by
  obtain ⟨evs', ht, _, hp, _⟩ := hx.events
  rw [new] at ht
  obtain rfl := List.append_cancel_left ht
  have : call (.sent s bytes ok) ∈ evs.map call := List.mem_map_of_mem sent
  have := hp.subset this
  simp only [call, List.mem_cons, Call.send.injEq, List.not_mem_nil, or_false] at this
  rcases this with h | h
  · exact h
  · cases h

theorem op_sends (op : Op) (w : World) {evs : List Ev} (new : (op.run w).2.trace = w.trace ++ evs) {s : Sock}
    {bytes : Bytes} {ok : Bool} (sent : .sent s bytes ok ∈ evs) : Sends w op s bytes := by
  have unsent : (op.run w).2 = w → Sends w op s bytes := by
    intro h
    rw [h] at new
    have : evs = [] := by simpa using new
    rw [this] at sent
    cases sent
  cases op with
  | «open» h p i =>
    have hc := open_cases h p i w
    have e : Op.run (.open h p i) w = Session.open h p i w := rfl
    rw [e] at new
    clear e unsent
    generalize Session.open h p i w = r at hc new
    cases hc <;>
    · have := List.append_cancel_left new
      subst this
      simp [openEvents] at sent
      try (obtain ⟨rfl, rfl, _⟩ := sent; exact .registration h p i)
  | close =>
    have hc := close_cases w
    have e : Op.run .close w = Session.close w := rfl
    rw [e] at new
    clear e unsent
    generalize Session.close w = r at hc new
    cases hc <;>
    · have := List.append_cancel_left new
      subst this
      simp at sent
      obtain ⟨rfl, rfl, _⟩ := sent
      exact .unregister
  | getConnection n => exact unsent (getConnection_world n w)
  | receiveIOPacket =>
    obtain ⟨ok', s', e, _⟩ := receiveIO_world w
    rw [e] at new
    have := List.append_cancel_left new
    subst this
    simp at sent
  | sendIOPacket p =>
    rcases sendIO_world p w with e | ⟨bs, ok', h, e⟩
    · exact unsent e
    · rw [e] at new
      have := List.append_cancel_left new
      subst this
      simp at sent
      obtain ⟨rfl, rfl, _⟩ := sent
      exact .io p _ h
  | getAttribute δ c init x y z =>
    have e : (Op.run (.getAttribute δ c init x y z) w).2 =
        (Session.sendRRDataCommand 0x0E (Path.mk3 x y z) none w).2 := by
      simp only [Op.run, getAttr_eq]
      rcases Session.sendRRDataCommand 0x0E (Path.mk3 x y z) none w with ⟨(_ | _ | _), _⟩ <;> rfl
    rw [e] at new
    obtain ⟨rfl, rfl⟩ := exchange_sends (getAttr_cases x y z w).exchange new sent
    exact .get ..
  | setAttribute x y z data =>
    have e : (Op.run (.setAttribute x y z data) w).2 =
        (Session.sendRRDataCommand 0x10 (Path.mk3 x y z) data w).2 := by
      simp only [Op.run, setAttr_eq]
      rcases Session.sendRRDataCommand 0x10 (Path.mk3 x y z) data w with ⟨(_ | _ | _), _⟩ <;> rfl
    rcases sendRR_total 0x10 (Path.mk3 x y z) data w with ⟨bs, hs, rr⟩ | ⟨ex, h⟩ | ⟨u, h⟩
    · rw [e] at new
      obtain ⟨rfl, rfl⟩ := exchange_sends rr.exchange new sent
      exact .set _ _ _ _ _ hs
    · exact unsent (by rw [e, h])
    · exact unsent (by rw [e, h])
  | createConnection o t =>
    have cc := create_cases w o t
    have e : (Op.run (.createConnection o t) w).2 = (Session.createConnection o t w).2 := by
      have e : Op.run (.createConnection o t) w = (Session.createConnection o t).forget w := rfl
      rw [e, forget_eq]
      rcases Session.createConnection o t w with ⟨(_ | _ | _), _⟩ <;> rfl
    rw [e] at new
    clear e unsent
    have key : ∀ {w'}, Exchange w.bumped (openBytes w.s o t) w' → w'.trace = w.trace ++ evs →
        Sends w (.createConnection o t) s bytes := by
      intro w' hx new
      obtain ⟨rfl, rfl⟩ := exchange_sends hx (show w'.trace = w.bumped.trace ++ evs from new) sent
      exact .create ..
    have ex : ∀ {s data}, Works w.env w.clock → Response w.s.sessionId (delivered w.env (w.clock + 1)) s 0 data →
        Exchange w.bumped (openBytes w.s o t) (w.bumped.exchanged (openBytes w.s o t)) := by
      intro s data hw hr
      obtain ⟨resp, rr⟩ := rr_of_response (w := w.bumped) (openBytes w.s o t) hw hr
      exact rr.exchange
    generalize Session.createConnection o t w = r at cc new
    cases cc with
    | thrown e w' rr => exact key rr.exchange new
    | crashed u w' rr => exact key rr.exchange new
    | noData s hw hr => exact key (ex hw hr) new
    | short what s data hw hr => exact key (ex hw hr) new
    | mismatch what s data _ _ _ _ _ _ _ hw hr => exact key (ex hw hr) new
    | created s data _ _ _ _ hw hr => exact key (ex hw hr) new
  | closeConnection n =>
    have e : Op.run (.closeConnection n) w = Session.closeConnection n w := rfl
    cases hn : w.s.connections[n]? with
    | none => exact unsent (by rw [e, closeConn_bad w n hn])
    | some c =>
      have cc := closeConn_cases w n c hn
      rw [e] at new
      clear e unsent
      have key : ∀ {w'}, Exchange w (closeBytes w.s.sessionId c) w' → w'.trace = w.trace ++ evs →
          Sends w (.closeConnection n) s bytes := by
        intro w' hx new
        obtain ⟨rfl, rfl⟩ := exchange_sends hx new sent
        exact .closeConn n c hn
      have ex : ∀ {s data}, Works w.env w.clock → Response w.s.sessionId (delivered w.env (w.clock + 1)) s 0 data →
          Exchange w (closeBytes w.s.sessionId c) (w.exchanged (closeBytes w.s.sessionId c)) := by
        intro s data hw hr
        obtain ⟨resp, rr⟩ := rr_of_response (w := w) (closeBytes w.s.sessionId c) hw hr
        exact rr.exchange
      generalize Session.closeConnection n w = r at cc new
      cases cc with
      | thrown e w' rr => exact key rr.exchange new
      | crashed u w' rr => exact key rr.exchange new
      | noData s hw hr => exact key (ex hw hr) new
      | short what s data hw hr => exact key (ex hw hr) new
      | mismatch what s data _ _ _ hw hr => exact key (ex hw hr) new
      | closed s data hw hr => exact key (ex hw hr) new

end Eip
