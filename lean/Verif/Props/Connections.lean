import Verif.Lemmas.Distinct
import Verif.Props.Commands
import Verif.Props.Wire
/-
C41 - C50: opening and closing connections.
-/
namespace Eip
open Spec

/-- Data of a forward open reply for the first connection of `answering`. -/
def openAnswer (sn : UInt16) : Bytes := replyWith 7 0 0xDB 0 (forwardOpenReply 11 12 sn 1 2 13 14 0 0 [])

/-- Data of a forward close reply. -/
def closeAnswer (sn : UInt16) : Bytes := replyWith 7 0 0xCE 0 (forwardCloseReply sn 1 2 0 0 [])

/-- A stored connection with the given serial number. -/
def stored (sn : UInt16) : Connection :=
  { Connection.new ⟨1, 2, 3⟩ ⟨4, 5, 6⟩ with originatorVendorId := 1, originatorSn := 2, connectionSn := sn }

/-! ### C41 -/

theorem size_round_trip {n m : Nat} (h : n < m) : (n + 1 + m - 1) % m = n := by
  rw [show n + 1 + m - 1 = n + m by omega, Nat.add_mod_right, Nat.mod_eq_of_lt h]

theorem small_int {n m : Nat} (h : n < 2147483648) (hm : m = 4294967296) : Int.bmod (n : Int) m = n := by
  subst hm
  rw [Int.bmod_def]
  omega

theorem sizeSub_one {n m : Nat} (hm : m = 2 ^ 64) (h : n < m) : sizeSub (n + 1) 1 = n := by
  rw [sizeSub, ← hm]
  exact size_round_trip h

theorem below_size {n m : Nat} (hm : m = 2 ^ 64) (h : n < 2147483648) : n < m := by
  have : m = 18446744073709551616 := hm
  omega

theorem small_size {n : Nat} (h : n < 2147483648) : sizeToInt n = n := small_int h rfl

theorem connection_number {n : Nat} (h : n < 2147483648) : sizeToInt (sizeSub (n + 1) 1) = n :=
  (congrArg sizeToInt (sizeSub_one (m := 2 ^ 64) rfl (below_size rfl h))).trans (small_size h)

/-- C41. If `createConnection` returns `i`, one connection has been added at the end of the list, at position `i`
(as long as the number of connections fits an `int`), and the session id is unchanged. -/
theorem c41_created (w w' : World) (o t : ConnectionInfo) (i : Int) (few : w.s.connections.length < 2147483648)
    (h : Session.createConnection o t w = (.ok i, w')) :
    ∃ c, w'.s.connections = w.s.connections ++ [c] ∧ i = w.s.connections.length ∧
      w'.s.sessionId = w.s.sessionId := by
  obtain ⟨s, data, oToT, tToO, oApi, tApi, _, _, _, hi, hw⟩ := create_ok h
  refine ⟨_, by rw [hw]; rfl, ?_, by rw [hw]; rfl⟩
  rw [hi, connection_number few]

/-- C41. If `createConnection` does not return normally, connections and session id are unchanged. -/
theorem c41_failed (w w' : World) (o t : ConnectionInfo) (r : Res Int) (bad : ∀ i, r ≠ .ok i)
    (h : Session.createConnection o t w = (r, w')) :
    w'.s.connections = w.s.connections ∧ w'.s.sessionId = w.s.sessionId := by
  have cc := create_cases w o t
  rw [h] at cc
  generalize he : ((r, w') : Res Int × World) = x at cc
  have h2 : w' = x.2 := congrArg Prod.snd he
  cases cc with
  | thrown e w'' rr => rw [h2]; have := rr.exchange.keeps; dsimp only at this ⊢; rw [this]; exact ⟨rfl, rfl⟩
  | crashed u w'' rr => rw [h2]; have := rr.exchange.keeps; dsimp only at this ⊢; rw [this]; exact ⟨rfl, rfl⟩
  | noData s hw hr => rw [h2]; exact ⟨rfl, rfl⟩
  | short what s data hw hr => rw [h2]; exact ⟨rfl, rfl⟩
  | mismatch what s data _ _ _ _ _ _ _ hw hr => rw [h2]; exact ⟨rfl, rfl⟩
  | created s data oToT tToO oApi tApi hw hr ho => exact absurd (congrArg Prod.fst he) (bad _)

example : (Session.createConnection ⟨1, 2, 3⟩ ⟨4, 5, 6⟩ (answering (openAnswer 3))).1 = .ok 0 := by decide +kernel

/-! ### C42 -/

/-- C42. If `closeConnection(n)` returns, exactly the connection at position `n` has been removed; otherwise the list is
unchanged. The session id never changes. -/
theorem c42_closed (w w' : World) (n : Nat) (r : Res Unit) (h : Session.closeConnection n w = (r, w')) :
    (r = .ok () → n < w.s.connections.length ∧
      w'.s.connections = w.s.connections.take n ++ w.s.connections.drop (n + 1)) ∧
    (r ≠ .ok () → w'.s.connections = w.s.connections) ∧ w'.s.sessionId = w.s.sessionId := by
  cases hn : w.s.connections[n]? with
  | none =>
    rw [closeConn_bad w n hn] at h
    cases h
    exact ⟨(fun h' => nomatch h'), fun _ => rfl, rfl⟩
  | some c =>
    have cc := closeConn_cases w n c hn
    rw [h] at cc
    cases cc with
    | thrown e _ rr => 
      have := rr.exchange.keeps; dsimp only at this
      exact ⟨(fun h' => nomatch h'), fun _ => by rw [this], by rw [this]⟩
    | crashed u _ rr => 
      have := rr.exchange.keeps; dsimp only at this
      exact ⟨(fun h' => nomatch h'), fun _ => by rw [this], by rw [this]⟩
    | noData s hw hr => exact ⟨(fun h' => nomatch h'), fun _ => rfl, rfl⟩
    | short what s data hw hr => exact ⟨(fun h' => nomatch h'), fun _ => rfl, rfl⟩
    | mismatch what s data _ _ _ hw hr => exact ⟨(fun h' => nomatch h'), fun _ => rfl, rfl⟩
    | closed s data hw hr =>
      refine ⟨fun _ => ⟨(List.getElem?_eq_some_iff.mp hn).1, ?_⟩, fun h => absurd rfl h, rfl⟩
      exact List.eraseIdx_eq_take_drop_succ ..

/-- Closing the first of two connections. -/
def twoConnections : World :=
  { answering (closeAnswer 3) with s := { (answering []).s with connections := [stored 3, stored 4] } }

example : Session.closeConnection 0 twoConnections = (.ok (), (Session.closeConnection 0 twoConnections).2) ∧
    (Session.closeConnection 0 twoConnections).2.s.connections = [stored 4] := by
  constructor
  · have : (Session.closeConnection 0 twoConnections).1 = .ok () := by decide +kernel
    rw [← this]
  · decide +kernel

/-! ### C43 -/

/-- C43 is false: whenever a connection that is not the last one is closed, the number of the last connection becomes
invalid although that connection is still open, and using it is undefined behaviour. -/
theorem c43_violated (w w' : World) (n : Nat) (h : Session.closeConnection n w = (.ok (), w'))
    (c : Connection) (last : w.s.connections[w.s.connections.length - 1]? = some c)
    (notLast : n < w.s.connections.length - 1) :
    c ∈ w'.s.connections ∧
    (Session.getConnection (w.s.connections.length - 1) w').1 = .ub .indexOutOfRange ∧
    (Session.closeConnection (w.s.connections.length - 1) w').1 = .ub .indexOutOfRange := by
  obtain ⟨h1, _, _⟩ := c42_closed w w' n _ h
  obtain ⟨hn, e⟩ := h1 rfl
  have hl : w'.s.connections[w.s.connections.length - 1]? = none := by
    rw [e, List.getElem?_eq_none]
    simp only [List.length_append, List.length_take, List.length_drop]
    omega
  refine ⟨?_, ?_, ?_⟩
  · rw [e]
    apply List.mem_append_right
    refine List.mem_of_getElem? (i := w.s.connections.length - 1 - (n + 1)) ?_
    rw [List.getElem?_drop, ← last]
    congr 1
    omega
  · rw [getConnection_eq, hl]
  · rw [closeConn_bad w' _ hl]

example : (Session.closeConnection 0 twoConnections).1 = .ok () ∧ twoConnections.s.connections[2 - 1]? = some (stored 4) ∧
    0 < twoConnections.s.connections.length - 1 := by decide +kernel

/-- Closes no connection up to number `m`. -/
def ClosesAbove (m : Nat) : Op → Prop
  | .closeConnection n => m < n
  | _ => True

/-- C43 (partial: no smaller number is closed). A connection keeps its number in every history that closes only
connections with larger numbers; creating connections, commands and IO never matter. Missing: histories that close a
connection with a smaller number, for which it is false. -/
theorem c43_stable_partial (ops : List Op) (m : Nat) (above : ∀ op ∈ ops, ClosesAbove m op) (w : World) (c : Connection)
    (h : w.s.connections[m]? = some c) : (runOps ops w).1.s.connections[m]? = some c := by
  refine runOps_induct (P := ClosesAbove m) (R := fun w w' => ∀ c, w.s.connections[m]? = some c →
    w'.s.connections[m]? = some c) (fun _ _ h => h) (fun _ _ _ h1 h2 c h => h2 c (h1 c h)) ?_ ops above w c h
  intro op w hop c h
  cases op with
  | createConnection o t =>
    have e : (Op.run (.createConnection o t) w).2 = (Session.createConnection o t w).2 := by
      have e : Op.run (.createConnection o t) w = (Session.createConnection o t).forget w := rfl
      rw [e, forget_eq]
      rcases Session.createConnection o t w with ⟨(_ | _ | _), _⟩ <;> rfl
    rw [e]
    obtain ⟨_, _, _, _, _, _, hc⟩ := create_step o t w
    rcases hc with ⟨hc, _⟩ | ⟨c', hc, _⟩
    · rw [hc]; exact h
    · rw [hc, List.getElem?_append_left (List.getElem?_eq_some_iff.mp h).1]; exact h
  | closeConnection n =>
    have e : Op.run (.closeConnection n) w = Session.closeConnection n w := rfl
    rw [e]
    have hc := c42_closed w (Session.closeConnection n w).2 n (Session.closeConnection n w).1 rfl
    by_cases hr : (Session.closeConnection n w).1 = .ok ()
    · obtain ⟨hn, e⟩ := hc.1 hr
      rw [e, List.getElem?_append_left (by rw [List.length_take]; have : m < n := hop; omega),
        List.getElem?_take_of_lt hop]
      exact h
    · rw [hc.2.1 hr]; exact h
  | «open» h' p i =>
    have hc := open_cases h' p i w
    have e : Op.run (.open h' p i) w = Session.open h' p i w := rfl
    rw [e]
    generalize Session.open h' p i w = r at hc ⊢
    cases hc <;> exact h
  | close =>
    have hc := close_cases w
    have e : Op.run .close w = Session.close w := rfl
    rw [e]
    generalize Session.close w = r at hc ⊢
    cases hc <;> exact h
  | getConnection n => rw [getConnection_world]; exact h
  | receiveIOPacket =>
    obtain ⟨ok, s, e, hs⟩ := receiveIO_world w
    rw [e]
    show s.connections[m]? = _
    rw [hs]; exact h
  | sendIOPacket p =>
    rcases sendIO_world p w with e | ⟨bs, ok, _, e⟩
    · rw [e]; exact h
    · rw [e]; exact h
  | getAttribute δ c' init x y z =>
    have e : (Op.run (.getAttribute δ c' init x y z) w).2 =
        (Session.sendRRDataCommand 0x0E (Path.mk3 x y z) none w).2 := by
      simp only [Op.run, getAttr_eq]
      rcases Session.sendRRDataCommand 0x0E (Path.mk3 x y z) none w with ⟨(_ | _ | _), _⟩ <;> rfl
    rw [e, (getAttr_cases x y z w).exchange.keeps]
    exact h
  | setAttribute x y z data =>
    have e : (Op.run (.setAttribute x y z data) w).2 =
        (Session.sendRRDataCommand 0x10 (Path.mk3 x y z) data w).2 := by
      simp only [Op.run, setAttr_eq]
      rcases Session.sendRRDataCommand 0x10 (Path.mk3 x y z) data w with ⟨(_ | _ | _), _⟩ <;> rfl
    rw [e]
    rcases sendRR_total 0x10 (Path.mk3 x y z) data w with ⟨bs, hs, rr⟩ | ⟨ex, e⟩ | ⟨u, e⟩
    · rw [rr.exchange.keeps]; exact h
    · rw [e]; exact h
    · rw [e]; exact h

/-- Closing connection 1 does not affect connection 0. -/
example : ∀ op ∈ [Op.closeConnection 1], ClosesAbove 0 op := by simp [ClosesAbove]

/-! ### C44 -/

/-- C44 is false: every number that does not name a connection is undefined behaviour in both functions. -/
theorem c44_violated (w : World) (n : Nat) (h : w.s.connections.length ≤ n) :
    Session.closeConnection n w = (.ub .indexOutOfRange, w) ∧
    Session.getConnection n w = (.ub .indexOutOfRange, w) := by
  have hn : w.s.connections[n]? = none := List.getElem?_eq_none h
  exact ⟨closeConn_bad w n hn, by rw [getConnection_eq, hn]⟩

example : (answering []).s.connections.length ≤ 0 := by decide

/-- C44 (partial: numbers that do name a connection). For those there is no out of range access, and `getConnection`
returns the connection. Missing: all other numbers, for which it is false. -/
theorem c44_in_range_partial (w : World) (n : Nat) (h : n < w.s.connections.length) :
    (Session.closeConnection n w).1 ≠ .ub .indexOutOfRange ∧
    Session.getConnection n w = (.ok w.s.connections[n], w) := by
  have hn : w.s.connections[n]? = some w.s.connections[n] := List.getElem?_eq_getElem h
  refine ⟨?_, by rw [getConnection_eq, hn]⟩
  have cc := closeConn_cases w n _ hn
  generalize Session.closeConnection n w = r at cc ⊢
  cases cc with
  | thrown => simp
  | crashed u w' rr =>
    cases rr with
    | replied hw _ hr => cases hr; simp
  | noData => simp
  | short => simp
  | mismatch => simp
  | closed => simp

/-! ### C45 and C46 -/

/-- C45. In any history with at most 65536 attempts, from any state, all forward open requests sent carry different
connection serial numbers. (The data of set attribute commands may be any object that only adds bytes.) -/
theorem c45_serials_distinct (ops : List Op) (app : ∀ op ∈ ops, OpAppends op) (few : attempts ops ≤ 65536) (w : World)
    (evs : List Ev) (new : (runOps ops w).1.trace = w.trace ++ evs) :
    ((openRequests evs).map serialOf).Nodup := by
  obtain ⟨⟨evs', t, r, _⟩, _⟩ := history ops app w
  rw [new] at t
  obtain rfl := List.append_cancel_left t
  exact r.nodup (nodup_map (fun a b e => le2_inj e) (serials_nodup few))

/-- C45. Starting without connections, all connections in the list have different serial numbers. -/
theorem c45_connections_distinct (ops : List Op) (app : ∀ op ∈ ops, OpAppends op) (few : attempts ops ≤ 65536) (w : World)
    (none : w.s.connections = []) : ((runOps ops w).1.s.connections.map (·.connectionSn)).Nodup := by
  have h := (history ops app w).conns
  rw [none] at h
  exact h.nodup (serials_nodup few)

/-- C46. In any history with at most 2^31 attempts, from any state, all connection ids proposed in forward open requests
are different. -/
theorem c46_ids_distinct (ops : List Op) (app : ∀ op ∈ ops, OpAppends op) (few : attempts ops ≤ 2147483648) (w : World)
    (evs : List Ev) (new : (runOps ops w).1.trace = w.trace ++ evs) :
    ((openRequests evs).flatMap (fun b => [oToTOf b, tToOOf b])).Nodup := by
  obtain ⟨⟨evs', t, _, r⟩, _⟩ := history ops app w
  rw [new] at t
  obtain rfl := List.append_cancel_left t
  have h := sublist_flatMap (fun p : Bytes × Bytes => [p.1, p.2]) r
  rw [List.flatMap_map, List.flatMap_map] at h
  refine h.nodup ?_
  have e : (idPairs (attempts ops) w.s.nextConnectionId).flatMap (fun p => [le 4 p.1.toNat, le 4 p.2.toNat]) =
      (flat (idPairs (attempts ops) w.s.nextConnectionId)).map (fun x => le 4 x.toNat) := by
    rw [flat, List.map_flatMap]
    rfl
  exact e ▸ nodup_map (fun a b e => le4_inj e) (ids_nodup few)

/-- Two attempts, the first of which fails. -/
example : (openRequests (runOps [.createConnection ⟨1, 2, 3⟩ ⟨4, 5, 6⟩, .createConnection ⟨1, 2, 3⟩ ⟨4, 5, 6⟩]
      (answering (openAnswer 4))).1.trace).map serialOf = [[3, 0], [4, 0]] ∧
    (runOps [.createConnection ⟨1, 2, 3⟩ ⟨4, 5, 6⟩, .createConnection ⟨1, 2, 3⟩ ⟨4, 5, 6⟩]
      (answering (openAnswer 4))).1.s.connections.map (·.connectionSn) = [4] := by decide +kernel

/-! ### C47 -/

/-- C47. The first thing `createConnection` does is to send on the control socket exactly the large forward open
request for class 6, instance 1 that the protocol prescribes. -/
theorem c47_forward_open (w : World) (o t : ConnectionInfo) :
    ∃ (oParams tParams : UInt32) (ok : Bool) (rest : List Ev),
      oParams.toNat = connParams o.bufferSize.toNat false 2 2 false ∧
      tParams.toNat = connParams t.bufferSize.toNat true 2 2 false ∧
      (Session.createConnection o t w).2.trace = w.trace ++ .sent .tcp
        (command w.s.sessionId 0x5B [.class' 6, .instance' 1]
          (forwardOpen 6 80 w.s.nextConnectionId (w.s.nextConnectionId + 1) w.s.nextConnectionSn w.s.vendorId w.s.serialNum
            0 o.rpi oParams t.rpi tParams 1
            (path false [.class' 4, .instance' 1, .connectionPoint o.assemblyId, .connectionPoint t.assemblyId]))) ok :: rest := by
  have e : openBytes w.s o t = command w.s.sessionId 0x5B [.class' 6, .instance' 1]
          (forwardOpen 6 80 w.s.nextConnectionId (w.s.nextConnectionId + 1) w.s.nextConnectionSn w.s.vendorId w.s.serialNum
            0 o.rpi (ForwardOpenRequest.calcConnectionParams o.bufferSize false 2 2 false) t.rpi
            (ForwardOpenRequest.calcConnectionParams t.bufferSize true 2 2 false) 1
            (path false [.class' 4, .instance' 1, .connectionPoint o.assemblyId, .connectionPoint t.assemblyId])) := by
    rw [openBytes, forwardOpenBytes]
    have hp : pathBytes (w.s.prepareConnection o t).createForwardOpenRequest.path =
      path false [.class' 4, .instance' 1, .connectionPoint o.assemblyId, .connectionPoint t.assemblyId] :=
      pathBytes_eq ⟨rfl, rfl⟩
    rw [hp]
    rfl
  refine ⟨ForwardOpenRequest.calcConnectionParams o.bufferSize false 2 2 false,
    ForwardOpenRequest.calcConnectionParams t.bufferSize true 2 2 false, ?_⟩
  rw [← e]
  have cc := create_cases w o t
  generalize Session.createConnection o t w = r at cc ⊢
  have rrev : ∀ {r : Res RRDataResponse × World}, RRCases w.bumped (openBytes w.s o t) r →
      ∃ ok rest, r.2.trace = w.trace ++ .sent .tcp (openBytes w.s o t) ok :: rest := by
    intro r rr
    cases rr with
    | sendFails => exact ⟨false, [], rfl⟩
    | receiveFails => exact ⟨true, _, by simp only [World.after, List.append_assoc, List.cons_append]; rfl⟩
    | replied hw r hr => exact ⟨true, _, rfl⟩
  cases cc with
  | thrown e w' rr => 
    obtain ⟨ok, rest, h⟩ := rrev rr
    exact ⟨ok, rest, c11_packed_word .., c11_packed_word .., h⟩
  | crashed u w' rr =>
    obtain ⟨ok, rest, h⟩ := rrev rr
    exact ⟨ok, rest, c11_packed_word .., c11_packed_word .., h⟩
  | noData => exact ⟨true, _, c11_packed_word .., c11_packed_word .., rfl⟩
  | short => exact ⟨true, _, c11_packed_word .., c11_packed_word .., rfl⟩
  | mismatch => exact ⟨true, _, c11_packed_word .., c11_packed_word .., rfl⟩
  | created => exact ⟨true, _, c11_packed_word .., c11_packed_word .., rfl⟩

/-- Parameters of a 4-byte and a 6-byte connection. -/
example : connParams 4 false 2 2 false = 0x48000004 ∧ connParams 6 true 2 2 false = 0x4A000006 := by decide

/-! ### C48 -/

/-- C48. The first thing `closeConnection(n)` does is to send on the control socket exactly the forward close request
for class 6, instance 1 with the numbers stored for connection `n`. -/
theorem c48_forward_close (w : World) (n : Nat) (c : Connection) (h : w.s.connections[n]? = some c) :
    ∃ (ok : Bool) (rest : List Ev), (Session.closeConnection n w).2.trace = w.trace ++ .sent .tcp
        (command w.s.sessionId 0x4E [.class' 6, .instance' 1]
          (forwardClose c.timeoutTickSize c.timeoutTicks c.connectionSn c.originatorVendorId c.originatorSn
            (path true [.class' 2, .instance' 1]))) ok :: rest := by
  have e : ∃ (ok : Bool) (rest : List Ev), (Session.closeConnection n w).2.trace = w.trace ++ .sent .tcp
        (closeBytes w.s.sessionId c) ok :: rest := by
    have cc := closeConn_cases w n c h
    generalize Session.closeConnection n w = r at cc ⊢
    have rrev : ∀ {r : Res RRDataResponse × World}, RRCases w (closeBytes w.s.sessionId c) r →
        ∃ ok rest, r.2.trace = w.trace ++ .sent .tcp (closeBytes w.s.sessionId c) ok :: rest := by
      intro r rr
      cases rr with
      | sendFails => exact ⟨false, [], rfl⟩
      | receiveFails => exact ⟨true, _, by simp only [World.after, List.append_assoc, List.cons_append]; rfl⟩
      | replied hw r hr => exact ⟨true, _, rfl⟩
    cases cc with
    | thrown e w' rr => exact rrev rr
    | crashed u w' rr => exact rrev rr
    | noData => exact ⟨true, _, rfl⟩
    | short => exact ⟨true, _, rfl⟩
    | mismatch => exact ⟨true, _, rfl⟩
    | closed => exact ⟨true, _, rfl⟩
  exact e

/-- C48. When `createConnection` succeeds, the connection stored at the end of the list has the three numbers that the
forward open request carried; it was the only request of the call. -/
theorem c48_stored_as_requested (w w' : World) (o t : ConnectionInfo) (i : Int)
    (h : Session.createConnection o t w = (.ok i, w')) :
    ∃ evs body c, w'.trace = w.trace ++ evs ∧ openRequests evs = [body] ∧ w'.s.connections = w.s.connections ++ [c] ∧
      triadOf body = triad c.connectionSn c.originatorVendorId c.originatorSn := by
  obtain ⟨s, data, oToT, tToO, oApi, tApi, _, _, _, hi, hw⟩ := create_ok h
  refine ⟨[.sent .tcp (openBytes w.s o t) true, .received .tcp (delivered w.env (w.clock + 1)) true],
    openBody w.s o t, _, by rw [hw]; rfl, ?_, by rw [hw]; rfl, ?_⟩
  · simp only [openRequests, openRequest, List.filterMap_cons, List.filterMap_nil, openBytes_body]
  · exact (openBody_fields w.s o t).2.2.2

/-- C48 over histories: after any history that starts without connections, what closing any connection of the list sends
first is a forward close request whose three numbers are those of a forward open request sent earlier. -/
theorem c48_histories (ops : List Op) (app : ∀ op ∈ ops, OpAppends op) (w0 w : World) (none : w0.s.connections = [])
    (hist : (runOps ops w0).1 = w) (n : Nat) (hn : n < w.s.connections.length) :
    ∃ bytes ok rest closeBody openBody, (Session.closeConnection n w).2.trace = w.trace ++ .sent .tcp bytes ok :: rest ∧
      managerBody 0x4E bytes = some closeBody ∧ openBody ∈ openRequests w.trace ∧
      (closeBody.drop 2).take 8 = triadOf openBody := by
  have inv : ∀ c ∈ w.s.connections, ∃ body ∈ openRequests w.trace,
      triadOf body = triad c.connectionSn c.originatorVendorId c.originatorSn := by
    rw [← hist]
    refine runOps_induct (P := OpAppends) (R := fun w w' =>
      (∀ c ∈ w.s.connections, ∃ body ∈ openRequests w.trace,
        triadOf body = triad c.connectionSn c.originatorVendorId c.originatorSn) →
      (∀ c ∈ w'.s.connections, ∃ body ∈ openRequests w'.trace,
        triadOf body = triad c.connectionSn c.originatorVendorId c.originatorSn)) (fun _ h => h)
      (fun _ _ _ h1 h2 h => h2 (h1 h)) ?_ ops app w0 (by rw [none]; intro c hc; cases hc)
    intro op w hop h
    by_cases hc : ∃ o t, op = .createConnection o t
    · obtain ⟨o, t, rfl⟩ := hc
      have e : (Op.run (.createConnection o t) w).2 = (Session.createConnection o t w).2 := by
        have e : Op.run (.createConnection o t) w = (Session.createConnection o t).forget w := rfl
        rw [e, forget_eq]
        rcases Session.createConnection o t w with ⟨(_ | _ | _), _⟩ <;> rfl
      rw [e]
      obtain ⟨_, _, _, _, evs, ht, hcs⟩ := create_step o t w
      intro c hc
      rw [ht, openRequests_append]
      rcases hcs with ⟨e, _⟩ | ⟨c', e, e1, e2, e3, hr⟩
      · rw [e] at hc
        obtain ⟨body, hb, hb'⟩ := h c hc
        exact ⟨body, List.mem_append_left _ hb, hb'⟩
      · rw [e] at hc
        rcases List.mem_append.mp hc with hc | hc
        · obtain ⟨body, hb, hb'⟩ := h c hc
          exact ⟨body, List.mem_append_left _ hb, hb'⟩
        · rw [List.mem_singleton] at hc
          subst hc
          refine ⟨openBody w.s o t, List.mem_append_right _ (by rw [hr]; exact List.mem_singleton.mpr rfl), ?_⟩
          rw [(openBody_fields w.s o t).2.2.2, e1, e2, e3]
    · have hn : ∀ o t, op ≠ .createConnection o t := fun o t h => hc ⟨o, t, h⟩
      obtain ⟨⟨evs, ht, _⟩, _, _, hs⟩ := other_step op hop hn w
      intro c hc
      obtain ⟨body, hb, hb'⟩ := h c (hs.subset hc)
      exact ⟨body, by rw [ht, openRequests_append]; exact List.mem_append_left _ hb, hb'⟩
  obtain ⟨body, hb, hb'⟩ := inv _ (List.getElem_mem hn)
  obtain ⟨ok, rest, hsent⟩ := c48_forward_close w n _ (List.getElem?_eq_getElem hn)
  refine ⟨_, ok, rest, _, body, hsent, manager_body .., hb, ?_⟩
  rw [hb', forwardClose]
  have := slice [w.s.connections[n].timeoutTickSize, w.s.connections[n].timeoutTicks] (triad w.s.connections[n].connectionSn
    w.s.connections[n].originatorVendorId w.s.connections[n].originatorSn) (path true [.class' 2, .instance' 1]) (n := 2) (k := 8)
    rfl (by simp [triad])
  simp only [triad, List.append_assoc] at this ⊢
  exact this

/-- A history that leaves one connection. -/
example : (runOps [.createConnection ⟨1, 2, 3⟩ ⟨4, 5, 6⟩] (answering (openAnswer 3))).1.s.connections.length = 1 := by
  decide +kernel

/-! ### C49 -/

/-- C49. If `createConnection` returns, the reply had general status 0 and its data was a forward open reply repeating
the connection serial number, vendor id and originator serial number of the request; the connection stored has the ids
and actual packet intervals of the reply. -/
theorem c49_success (w w' : World) (o t : ConnectionInfo) (i : Int)
    (h : Session.createConnection o t w = (.ok i, w')) :
    ∃ s data oToT tToO oApi tApi c, Response w.s.sessionId (delivered w.env (w.clock + 1)) s 0 data ∧
      OpenReply data oToT tToO w.s.nextConnectionSn w.s.vendorId w.s.serialNum oApi tApi ∧
      w'.s.connections = w.s.connections ++ [c] ∧ c.oToTConnectionId = oToT ∧ c.tToOConnectionId = tToO ∧
      c.oToTApi = oApi ∧ c.tToOApi = tApi ∧ c.connectionSn = w.s.nextConnectionSn ∧
      c.originatorVendorId = w.s.vendorId ∧ c.originatorSn = w.s.serialNum := by
  obtain ⟨s, data, oToT, tToO, oApi, tApi, _, hr, ho, _, hw⟩ := create_ok h
  exact ⟨s, data, oToT, tToO, oApi, tApi, w.s.opened o t oToT tToO oApi tApi, hr, ho, by rw [hw]; rfl, rfl, rfl, rfl, rfl,
    rfl, rfl, rfl⟩

/-- C49. A forward open reply for another connection makes `createConnection` throw `logic_error` and add nothing. -/
theorem c49_refused (w : World) (o t : ConnectionInfo) (works : Works w.env w.clock) (s : UInt8) (data : Bytes)
    (oToT tToO : UInt32) (sn vendor : UInt16) (originator oApi tApi : UInt32)
    (reply : Response w.s.sessionId (delivered w.env (w.clock + 1)) s 0 data)
    (body : OpenReply data oToT tToO sn vendor originator oApi tApi)
    (other : sn ≠ w.s.nextConnectionSn ∨ vendor ≠ w.s.vendorId ∨ originator ≠ w.s.serialNum) :
    ∃ what w', Session.createConnection o t w = (.throw (logicError what), w') ∧
      w'.s.connections = w.s.connections := by
  have cc := create_cases w o t
  rcases hres : Session.createConnection o t w with ⟨r, w'⟩
  have bad : ∀ {r : Res RRDataResponse × World}, RRCases w.bumped (openBytes w.s o t) r → ∃ x, r.1 = .ok x := by
    intro r rr
    cases rr with
    | sendFails h => have h : (w.env w.clock).fails = true := h; rw [works.1] at h; cases h
    | receiveFails _ h => have h : (w.env (w.clock + 1)).fails = true := h; rw [works.2] at h; cases h
    | replied hw _ hr =>
      cases hr with
      | good => exact ⟨_, rfl⟩
      | hollow h => exact absurd h (Response.not_hollow reply)
      | refused _ h => exact absurd ⟨s, data, reply⟩ h
  rw [hres] at cc
  generalize he : ((r, w') : Res Int × World) = x at cc
  cases cc with
  | thrown e w'' rr => obtain ⟨x, hx⟩ := bad rr; cases hx
  | crashed u w'' rr => obtain ⟨x, hx⟩ := bad rr; cases hx
  | noData s' hw hr =>
    obtain ⟨_, _, rfl⟩ := Response.unique reply hr
    obtain ⟨k, rs, app, tail, _, e⟩ := body
    have := congrArg List.length e
    simp [forwardOpenReply] at this
  | short what s' data' hw hr _ hn =>
    obtain ⟨_, _, rfl⟩ := Response.unique reply hr
    exact absurd ⟨_, _, _, _, _, _, _, body⟩ hn
  | mismatch what s' data' _ _ _ _ _ _ _ hw hr ho =>
    exact ⟨what, _, rfl, rfl⟩
  | created s' data' _ _ _ _ hw hr ho =>
    obtain ⟨_, _, rfl⟩ := Response.unique reply hr
    obtain ⟨_, _, h1, h2, h3, _⟩ := OpenReply.unique body ho
    rcases other with h | h | h
    · exact absurd h1 h
    · exact absurd h2 h
    · exact absurd h3 h

example : (Session.createConnection ⟨1, 2, 3⟩ ⟨4, 5, 6⟩ (answering (openAnswer 9))).1 =
    .throw (logicError "Forward Open Response Invalid") := by decide +kernel

/-- C49, conversely: a forward open reply that repeats the three numbers of the request is accepted, whatever else it says, and
the connection is stored with the ids and packet intervals of the reply. -/
theorem c49_accepted (w : World) (o t : ConnectionInfo) (works : Works w.env w.clock) (s : UInt8) (data : Bytes)
    (oToT tToO oApi tApi : UInt32) (reply : Response w.s.sessionId (delivered w.env (w.clock + 1)) s 0 data)
    (body : OpenReply data oToT tToO w.s.nextConnectionSn w.s.vendorId w.s.serialNum oApi tApi) :
    ∃ i w' c, Session.createConnection o t w = (.ok i, w') ∧ w'.s.connections = w.s.connections ++ [c] ∧
      c.oToTConnectionId = oToT ∧ c.tToOConnectionId = tToO ∧ c.oToTApi = oApi ∧ c.tToOApi = tApi := by
  have cc := create_cases w o t
  rcases hres : Session.createConnection o t w with ⟨r, w'⟩
  have bad : ∀ {r : Res RRDataResponse × World}, RRCases w.bumped (openBytes w.s o t) r → ∃ x, r.1 = .ok x := by
    intro r rr
    cases rr with
    | sendFails h => have h : (w.env w.clock).fails = true := h; rw [works.1] at h; cases h
    | receiveFails _ h => have h : (w.env (w.clock + 1)).fails = true := h; rw [works.2] at h; cases h
    | replied hw _ hr =>
      cases hr with
      | good => exact ⟨_, rfl⟩
      | hollow h => exact absurd h (Response.not_hollow reply)
      | refused _ h => exact absurd ⟨s, data, reply⟩ h
  rw [hres] at cc
  generalize he : ((r, w') : Res Int × World) = x at cc
  cases cc with
  | thrown e w'' rr => obtain ⟨x, hx⟩ := bad rr; cases hx
  | crashed u w'' rr => obtain ⟨x, hx⟩ := bad rr; cases hx
  | noData s' hw hr =>
    obtain ⟨_, _, rfl⟩ := Response.unique reply hr
    obtain ⟨k, rs, app, tail, _, e⟩ := body
    have := congrArg List.length e
    simp [forwardOpenReply] at this
  | short what s' data' hw hr _ hn =>
    obtain ⟨_, _, rfl⟩ := Response.unique reply hr
    exact absurd ⟨_, _, _, _, _, _, _, body⟩ hn
  | mismatch what s' data' _ _ _ _ _ _ _ hw hr ho hm =>
    obtain ⟨_, _, rfl⟩ := Response.unique reply hr
    obtain ⟨_, _, h1, h2, h3, _⟩ := OpenReply.unique body ho
    exact absurd ⟨h1.symm, h2.symm, h3.symm⟩ hm
  | created s' data' _ _ _ _ hw hr ho =>
    obtain ⟨_, _, rfl⟩ := Response.unique reply hr
    obtain ⟨rfl, rfl, _, _, _, rfl, rfl⟩ := OpenReply.unique body ho
    exact ⟨_, _, _, rfl, rfl, rfl, rfl, rfl, rfl⟩

/-! ### C50 -/

/-- C50. If `closeConnection(n)` returns, the reply had general status 0 and its data was a forward close reply repeating
the three numbers of connection `n`. -/
theorem c50_success (w w' : World) (n : Nat) (h : Session.closeConnection n w = (.ok (), w')) :
    ∃ c s data, w.s.connections[n]? = some c ∧ Response w.s.sessionId (delivered w.env (w.clock + 1)) s 0 data ∧
        CloseReply data c.connectionSn c.originatorVendorId c.originatorSn :=
  (c37_connection_replies_partial w).2 n w' h

/-- C50. A forward close reply for another connection makes `closeConnection` throw `logic_error` and remove nothing. -/
theorem c50_refused (w : World) (n : Nat) (c : Connection) (hn : w.s.connections[n]? = some c)
    (works : Works w.env w.clock) (s : UInt8) (data : Bytes) (sn vendor : UInt16) (originator : UInt32)
    (reply : Response w.s.sessionId (delivered w.env (w.clock + 1)) s 0 data)
    (body : CloseReply data sn vendor originator)
    (other : sn ≠ c.connectionSn ∨ vendor ≠ c.originatorVendorId ∨ originator ≠ c.originatorSn) :
    ∃ what w', Session.closeConnection n w = (.throw (logicError what), w') ∧
      w'.s.connections = w.s.connections := by
  have cc := closeConn_cases w n c hn
  rcases hres : Session.closeConnection n w with ⟨r, w'⟩
  have bad : ∀ {r : Res RRDataResponse × World}, RRCases w (closeBytes w.s.sessionId c) r → ∃ x, r.1 = .ok x := by
    intro r rr
    cases rr with
    | sendFails h => rw [works.1] at h; cases h
    | receiveFails _ h => rw [works.2] at h; cases h
    | replied hw _ hr =>
      cases hr with
      | good => exact ⟨_, rfl⟩
      | hollow h => exact absurd h (Response.not_hollow reply)
      | refused _ h => exact absurd ⟨s, data, reply⟩ h
  rw [hres] at cc
  cases cc with
  | thrown e w'' rr => obtain ⟨x, hx⟩ := bad rr; cases hx
  | crashed u w'' rr => obtain ⟨x, hx⟩ := bad rr; cases hx
  | noData s' hw hr =>
    obtain ⟨_, _, rfl⟩ := Response.unique reply hr
    obtain ⟨k, rs, app, tail, _, e⟩ := body
    have := congrArg List.length e
    simp [forwardCloseReply] at this
  | short what s' data' hw hr _ hm =>
    obtain ⟨_, _, rfl⟩ := Response.unique reply hr
    exact absurd ⟨_, _, _, body⟩ hm
  | mismatch what s' data' _ _ _ hw hr ho => exact ⟨what, _, rfl, rfl⟩
  | closed s' data' hw hr ho =>
    obtain ⟨_, _, rfl⟩ := Response.unique reply hr
    obtain ⟨h1, h2, h3⟩ := CloseReply.unique body ho
    rcases other with h | h | h
    · exact absurd h1 h
    · exact absurd h2 h
    · exact absurd h3 h

/-- The reply for connection 3 does not close connection 4. -/
example : (Session.closeConnection 1 twoConnections).1 = .throw (logicError "Forward Close Response Invalid") := by
  decide +kernel

/-- C50, conversely: a forward close reply that repeats the three numbers of connection `n` is accepted, and the connection is
removed. -/
theorem c50_accepted (w : World) (n : Nat) (c : Connection) (hn : w.s.connections[n]? = some c)
    (works : Works w.env w.clock) (s : UInt8) (data : Bytes)
    (reply : Response w.s.sessionId (delivered w.env (w.clock + 1)) s 0 data)
    (body : CloseReply data c.connectionSn c.originatorVendorId c.originatorSn) :
    ∃ w', Session.closeConnection n w = (.ok (), w') ∧
      w'.s.connections = w.s.connections.take n ++ w.s.connections.drop (n + 1) := by
  have cc := closeConn_cases w n c hn
  rcases hres : Session.closeConnection n w with ⟨r, w'⟩
  have bad : ∀ {r : Res RRDataResponse × World}, RRCases w (closeBytes w.s.sessionId c) r → ∃ x, r.1 = .ok x := by
    intro r rr
    cases rr with
    | sendFails h => rw [works.1] at h; cases h
    | receiveFails _ h => rw [works.2] at h; cases h
    | replied hw _ hr =>
      cases hr with
      | good => exact ⟨_, rfl⟩
      | hollow h => exact absurd h (Response.not_hollow reply)
      | refused _ h => exact absurd ⟨s, data, reply⟩ h
  have hr : r = .ok () := by
    rw [hres] at cc
    cases cc with
    | thrown e w'' rr => obtain ⟨x, hx⟩ := bad rr; cases hx
    | crashed u w'' rr => obtain ⟨x, hx⟩ := bad rr; cases hx
    | noData s' hw hr =>
      obtain ⟨_, _, rfl⟩ := Response.unique reply hr
      obtain ⟨k, rs, app, tail, _, e⟩ := body
      have := congrArg List.length e
      simp [forwardCloseReply] at this
    | short what s' data' hw hr _ hm =>
      obtain ⟨_, _, rfl⟩ := Response.unique reply hr
      exact absurd ⟨_, _, _, body⟩ hm
    | mismatch what s' data' _ _ _ hw hr ho hm =>
      obtain ⟨_, _, rfl⟩ := Response.unique reply hr
      obtain ⟨h1, h2, h3⟩ := CloseReply.unique body ho
      exact absurd ⟨h1.symm, h2.symm, h3.symm⟩ hm
    | closed s' data' hw hr ho => rfl
  subst hr
  exact ⟨w', rfl, ((c42_closed w w' n _ hres).1 rfl).2⟩

end Eip
