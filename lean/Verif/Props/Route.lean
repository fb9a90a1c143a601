import Verif.Props.Wired
/-
C110: where the traffic of a session goes. C111: where what it receives comes from.
-/
namespace Eip
open Spec

variable {dns : String → String → List Endpoint}

namespace Spec

theorem RoutedTo.keep {k k' : Sockets} {a b c : String} (h : RoutedTo dns k a b c) (r : SameRoute k k') :
    RoutedTo dns k' a b c :=
  ⟨r.tcpOpen.trans h.tcpOpen, by rw [r.peer]; exact h.peer, r.udpOpen.trans h.udpOpen, by rw [r.remote]; exact h.remote⟩

end Spec

theorem known_head {env : OpenEnv} {host port : String} (known : env.resolved = dns host port ∨ env.resolved = [])
    {ep : Endpoint} {more : List Endpoint} (h : env.resolved = ep :: more) : (dns host port).head? = some ep := by
  rcases known with e | e
  · rw [← e, h]; rfl
  · rw [h] at e; cases e

theorem NetStep.opened {k k' : Sockets} {w w' : World} {a b c : String} {as : List NetAct}
    (h : NetStep dns k w (.open a b c) (.ok ()) as k' w') : RoutedTo dns k' a b c := by
  have hc := open_cases a b c w
  have run : Session.open a b c w = (.ok (), w') := h.run
  rw [run] at hc
  have ht := h.trace
  clear run
  generalize hr : ((Res.ok (), w') : Res Unit × World) = r at hc
  cases hc with
  | registered handle hw hreg =>
    cases hr
    have hm : calls as = [] ++ .opened .tcp a b true :: .opened .io a c true :: [.sent .tcp registration true,
        .received .tcp (delivered w.env (w.clock + 3)) true] := by
      have := (List.append_cancel_left ht).symm
      simpa [openEvents] using this
    obtain ⟨k1, k2, x, y, h1, x1, o1, h2, y1⟩ := h.happen.at hm
    obtain ⟨k3, k4, x', y', h3, x2, o2, h4, y2⟩ := h2.first y1
    have r1 := h3.route (plain_of_none x2)
    have r2 := h4.route (plain_of_calls (by
      rw [y2]
      intro ev hev
      simp at hev
      rcases hev with rfl | rfl <;> trivial))
    refine RoutedTo.keep ?_ r2
    cases o1 with
    | tcpOpen host port env known ok t e =>
      obtain ⟨ep, hep, hcon, hp, ho, _⟩ := TCPSocket.open_peer e
      have hin : ep ∈ dns a b := by
        rcases known with h | h
        · rw [← h]; exact hep
        · rw [h] at hep; cases hep
      cases o2 with
      | udpOpen host port env' known' ok' u e' =>
        obtain ⟨_, _, ⟨hr, _⟩ | ⟨ep', more, hres, hrem, ⟨hr, _⟩ | ⟨hr, _⟩ | ⟨_, _, _, _, hu, _⟩⟩⟩ := UDPSocket.open_cases e'
        · simp at hr
        · simp at hr
        · simp at hr
        · refine ⟨r1.tcpOpen.trans ho, ⟨ep, hin, r1.peer.trans hp⟩, hu, ?_⟩
          rw [hrem]
          exact known_head known' hres
  | _ => cases hr

/-- A `close` that throws: closing one of the sockets failed, or the request could not be sent and nothing changed. -/
theorem NetStep.close_throws {k k' : Sockets} {w w' : World} {r : Res Unit} {as : List NetAct}
    (h : NetStep dns k w .close r as k' w') (hr : r ≠ .ok ()) :
    w'.s = w.s ∧ (SameRoute k k' ∨ ∃ s, .closed s false ∈ w'.trace) := by
  have hc := close_cases w
  have run : Session.close w = (r, w') := h.run
  rw [run] at hc
  have ht := h.trace
  clear run
  generalize hx : ((r, w') : Res Unit × World) = q at hc
  cases hc with
  | sendFails =>
    cases hx
    have hm := (List.append_cancel_left ht).symm
    exact ⟨rfl, .inl (h.happen.route (plain_of_calls (by rw [hm]; intro ev hev; simp at hev; rw [hev]; trivial)))⟩
  | tcpFails => cases hx; exact ⟨rfl, .inr ⟨.tcp, by simp [World.log]⟩⟩
  | ioFails => cases hx; exact ⟨rfl, .inr ⟨.io, by simp [World.log]⟩⟩
  | closed => cases hx; exact absurd rfl hr

theorem NetStep.sends {k k' : Sockets} {w w' : World} {op : Op} {r : Res Unit} {as : List NetAct}
    (h : NetStep dns k w op r as k' w') (no : ∀ a b c, op ≠ .open a b c) : SameOrClosed k k' := by
  by_cases hp : op.plain
  · exact (h.route hp).weaken
  · cases op with
    | «open» a b c => exact absurd rfl (no a b c)
    | close =>
      refine h.happen.sameOrClosed ?_
      have hc := close_cases w
      have run : Session.close w = (r, w') := h.run
      rw [run] at hc
      have ht := h.trace
      clear run
      generalize hx : ((r, w') : Res Unit × World) = q at hc
      cases hc <;> cases hx <;> rw [(List.append_cancel_left ht).symm] <;> simp
    | _ => exact absurd trivial hp

/-- The state of a session whose caller opens it only when it is closed. -/
structure Tidy (dns : String → String → List Endpoint) (isOpen : Bool) (last : Option (String × String × String))
    (k : Sockets) (w : World) : Prop where
  closed : isOpen = false → w.s.sessionId = 0
  routed : isOpen = true → ∃ a b c, last = some (a, b, c) ∧ (∀ ep, k.tcp.peer = some ep → ep ∈ dns a b) ∧
    (dns a c).head? = some k.udp.remoteEndpoint ∧ ((∀ s, .closed s false ∉ w.trace) → RoutedTo dns k a b c)

/-- A call that sends only where the session is routed to keeps that, if what it does to the routes comes from closing. -/
theorem Tidy.keep {i : Bool} {l : Option (String × String × String)} {k k' : Sockets} {w w' : World} (h : Tidy dns i l k w)
    (id : w'.s.sessionId = w.s.sessionId) (more : ∃ evs, w'.trace = w.trace ++ evs) (s : SameOrClosed k k')
    (r : SameRoute k k' ∨ ∃ s, .closed s false ∈ w'.trace) : Tidy dns i l k' w' := by
  obtain ⟨evs, ht⟩ := more
  refine ⟨fun hi => id.trans (h.closed hi), fun hi => ?_⟩
  obtain ⟨a, b, c, e, p, q, n⟩ := h.routed hi
  refine ⟨a, b, c, e, fun ep hep => ?_, by rw [s.remote]; exact q, fun no => ?_⟩
  · rcases s.peer with e | e
    · exact p ep (e ▸ hep)
    · rw [e] at hep; cases hep
  · rcases r with r | ⟨x, hx⟩
    · exact (n fun s hs => no s (by rw [ht]; exact List.mem_append_left _ hs)).keep r
    · exact absurd hx (no x)

theorem NetStep.keeps_id {k k' : Sockets} {w w' : World} {op : Op} {r : Res Unit} {as : List NetAct}
    (h : NetStep dns k w op r as k' w') (hp : op.plain) : w'.s.sessionId = w.s.sessionId := by
  have hc := c76_session_id op w
  rw [h.run] at hc
  rcases hc with hc | ⟨⟨a, b, c, rfl⟩, _⟩ | ⟨rfl, _⟩
  · exact hc
  · exact hp.elim
  · exact hp.elim

theorem Tidy.history {k k' : Sockets} {w w' : World} {ops : List (Op × Res Unit)} (h : NetHistory dns k w ops k' w') :
    ∀ {isOpen : Bool} {last : Option (String × String × String)}, Tidy dns isOpen last k w →
      OpensWhenClosed isOpen ops → ∃ isOpen', Tidy dns isOpen' (lastOpened last ops) k' w' := by
  induction h with
  | nil => intro i l ht _; exact ⟨i, ht⟩
  | arrive network h t ih =>
    intro i l ht ho
    exact ih (ht.keep rfl ⟨[], by simp⟩ (h.arrival network).weaken (.inl (h.arrival network))) ho
  | @call k1 k2 k3 w1 w2 w3 op r as ops h defined t ih =>
    intro i l ht ho
    have plain : op.plain → Tidy dns i l k2 w2 := fun hp =>
      ht.keep (h.keeps_id hp) ⟨_, h.trace⟩ (h.route hp).weaken (.inl (h.route hp))
    cases op with
    | «open» a b c =>
      obtain ⟨hi, ho⟩ := ho
      subst hi
      have h0 := ht.closed rfl
      cases r with
      | ok x =>
        have q := h.opened
        refine ih (isOpen := true) (last := some (a, b, c)) ⟨fun hi => (nomatch hi), fun _ => ⟨a, b, c, rfl, ?_, q.remote, fun _ => q⟩⟩ ho
        intro ep hep
        obtain ⟨ep', hin, hp⟩ := q.peer
        rw [hp] at hep
        exact Option.some.inj hep ▸ hin
      | throw e =>
        refine ih (isOpen := false) (last := l) ⟨fun _ => ?_, fun hi => (nomatch hi)⟩ ho
        exact (c31_failed_open_keeps_id a b c w1 w2 e h.run).trans h0
      | ub u =>
        refine ih (isOpen := false) (last := l) ⟨fun _ => ?_, fun hi => (nomatch hi)⟩ ho
        have hc := c76_session_id (.open a b c) w1
        rw [h.run] at hc
        rcases hc with hc | ⟨_, hc, _⟩ | ⟨_, hc, _⟩
        · exact hc.trans h0
        · cases hc
        · cases hc
    | close =>
      cases r with
      | ok x =>
        refine ih (isOpen := false) (last := l) ⟨fun _ => ?_, fun hi => (nomatch hi)⟩ ho
        exact (c76_sets w1 w2).2 h.run
      | throw e =>
        obtain ⟨r1, r2⟩ := h.close_throws (by simp)
        exact ih (ht.keep (by rw [r1]) ⟨_, h.trace⟩ (h.sends (by simp)) r2) ho
      | ub u =>
        obtain ⟨r1, r2⟩ := h.close_throws (by simp)
        exact ih (ht.keep (by rw [r1]) ⟨_, h.trace⟩ (h.sends (by simp)) r2) ho
    | getAttribute => exact ih (plain trivial) ho
    | setAttribute => exact ih (plain trivial) ho
    | createConnection => exact ih (plain trivial) ho
    | closeConnection => exact ih (plain trivial) ho
    | getConnection => exact ih (plain trivial) ho
    | receiveIOPacket => exact ih (plain trivial) ho
    | sendIOPacket => exact ih (plain trivial) ho

/-! ### C110 -/

/-- C110, as far as it holds: if the caller opens the session only when it is closed, then as long as it is open, its control
socket is connected to an endpoint of the device named in the last successful `open` and its I/O socket sends to the first
endpoint of that device, unless closing a socket has failed. Even then, whatever the next call sends, it sends there. -/
theorem c110_route_partial {k k' : Sockets} {w w' : World} {ops : List (Op × Res Unit)} (h : NetHistory dns k w ops k' w')
    (start : w.s.sessionId = 0) (careful : OpensWhenClosed false ops) (registered : w'.s.sessionId ≠ 0) :
    ∃ host port ioPort, lastOpened none ops = some (host, port, ioPort) ∧
      ((∀ s, .closed s false ∉ w'.trace) → RoutedTo dns k' host port ioPort) ∧
      ∀ op r as k'' w'', NetStep dns k' w' op r as k'' w'' → (∀ a b c, op ≠ .open a b c) →
        (∃ new, k''.tcp.sent = k'.tcp.sent ++ new ∧ ∀ x ∈ new, x.1 ∈ dns host port) ∧
        (∃ new, k''.udp.sent = k'.udp.sent ++ new ∧ ∀ x ∈ new, (dns host ioPort).head? = some x.1) := by
  obtain ⟨i, ht⟩ := Tidy.history h (isOpen := false) (last := none) ⟨fun _ => start, fun hi => (nomatch hi)⟩ careful
  cases i with
  | false => exact absurd (ht.closed rfl) registered
  | true =>
    obtain ⟨a, b, c, e, p, q, n⟩ := ht.routed rfl
    refine ⟨a, b, c, e, n, fun op r as k'' w'' hs no => ?_⟩
    have s := hs.sends no
    obtain ⟨n1, e1, m1⟩ := s.tcpSent
    obtain ⟨n2, e2, m2⟩ := s.udpSent
    refine ⟨⟨n1, e1, fun x hx => ?_⟩, ⟨n2, e2, fun x hx => ?_⟩⟩
    · exact p _ (m1 x hx)
    · rw [m2 x hx]
      exact q

/-- C110 does not hold: open an open session to another device that accepts the connection: the call throws, but from then
on the session, with its old handle, talks to the other device on both sockets. -/
theorem c110_violated {k k' : Sockets} {w w' : World} {host port ioPort : String} {r : Res Unit} {as : List NetAct}
    (h : NetStep dns k w (.open host port ioPort) r as k' w') (ioOpen : k.udp.isOpen = true)
    (accepts : .opened .tcp host port true ∈ calls as) :
    r = .throw systemError ∧ w'.s.sessionId = w.s.sessionId ∧ k'.tcp.isOpen = true ∧
      (∃ ep ∈ dns host port, k'.tcp.peer = some ep) ∧
      (k'.udp.remoteEndpoint = k.udp.remoteEndpoint ∨ (dns host ioPort).head? = some k'.udp.remoteEndpoint) := by
  obtain ⟨o, e, t⟩ := h.stuck ioOpen (by simp)
  have t := t ⟨_, _, _, rfl⟩
  subst t
  have hc := open_cases host port ioPort w
  have run : Session.open host port ioPort w = (.throw systemError, w') := h.run
  rw [run] at hc
  have ht := h.trace
  clear run
  have two : calls as = [] ++ .opened .tcp host port true :: [.opened .io host ioPort false] := by
    have bad : ∀ more, calls as = .opened .tcp host port true :: .opened .io host ioPort true :: more → False := by
      intro more hm
      obtain ⟨k1, k2, x, y, h1, x1, b, _, _⟩ := h.happen.at (es := [.opened .tcp host port true]) hm
      have := (h1.udp_open ioOpen (by rw [x1]; simp)).1
      exact (b.udp_open this (by simp)).2 _ _ rfl
    generalize hx : ((Res.throw systemError, w') : Res Unit × World) = q at hc
    cases hc with
    | tcpFails =>
      cases hx
      rw [(List.append_cancel_left ht).symm] at accepts
      simp at accepts
    | ioFails => cases hx; exact (List.append_cancel_left ht).symm
    | registered => cases hx
    | hollow => cases hx
    | rejected => cases hx
    | sendFails => cases hx; exact (bad _ (List.append_cancel_left ht).symm).elim
    | receiveFails => cases hx; exact (bad _ (List.append_cancel_left ht).symm).elim
    | tcpCloseFails => cases hx; exact (bad _ (List.append_cancel_left ht).symm).elim
    | ioCloseFails => cases hx; exact (bad _ (List.append_cancel_left ht).symm).elim
  obtain ⟨k1, k2, x, y, h1, x1, o1, h2, y1⟩ := h.happen.at two
  obtain ⟨k3, k4, x', y', h3, x2, o2, h4, y2⟩ := h2.first y1
  have r0 := h1.route (plain_of_none x1)
  have r1 := h3.route (plain_of_none x2)
  have r2 := h4.route (plain_of_none y2)
  have ut : k2.udp = k1.udp := by cases o1 with | tcpOpen => rfl
  have tt : k4.tcp = k3.tcp := by cases o2 with | udpOpen => rfl
  refine ⟨rfl, e, ?_⟩
  cases o1 with
  | tcpOpen host port env known ok t e =>
    obtain ⟨ep, hep, hcon, hp, ho, _⟩ := TCPSocket.open_peer e
    have hin : ep ∈ dns host port := by
      rcases known with h | h
      · rw [← h]; exact hep
      · rw [h] at hep; cases hep
    refine ⟨?_, ⟨ep, hin, ?_⟩, ?_⟩
    · rw [r2.tcpOpen, tt, r1.tcpOpen]; exact ho
    · rw [r2.peer, tt, r1.peer]; exact hp
    · rw [r2.remote]
      cases o2 with
      | udpOpen host port env' known' ok' u e' =>
        obtain ⟨_, _, ⟨_, _, rfl⟩ | ⟨ep', more, hres, hrem, _⟩⟩ := UDPSocket.open_cases e'
        · left
          show k3.udp.remoteEndpoint = _
          rw [r1.remote, ut, r0.remote]
        · right
          exact (known_head known' hres).trans (congrArg some hrem.symm)

/-- C110: what then happens to the next request: with the handle of the first device it arrives at the second. This is so
for every session whose I/O socket is open, every second device that accepts the connection, and every attribute. -/
theorem c110_violated_request (k : Sockets) (ioOpen : k.udp.isOpen = true) (s : Session) (host port ioPort : String)
    (te : OpenEnv) (name : te.resolved = dns host port) (tw : tcpWorks te) (δ : Type) (c : Class δ) (init : δ)
    (x y z : UInt8) :
    ∃ env ep k' w', ep ∈ dns host port ∧
      NetHistory dns k ⟨s, env, 0, []⟩
        [(.open host port ioPort, .throw systemError), (.getAttribute δ c init x y z, .throw systemError)] k' w' ∧
      k'.tcp.sent = k.tcp.sent ++ [(ep, command s.sessionId 0x0E [.class' x, .instance' y, .attribute z] [])] := by
  obtain ⟨hc, hx⟩ := tw
  obtain ⟨ep, hm, hep, he⟩ := TCPSocket.connect_ok te hc te.resolved k.tcp hx
  have ht : TCPSocket.open te k.tcp = (.ok (), { k.tcp with isOpen := true, peer := some ep, inbox := [] }) := by
    rw [← he]
    unfold TCPSocket.open
    split
    · next h => rw [h] at hm; cases hm
    · rfl
  generalize henv : (fun n => (⟨n == 1 || n == 3, [], 0⟩ : Answer)) = env
  have f0 : (env 0).fails = false := by rw [← henv]; rfl
  have f1 : (env 1).fails = true := by rw [← henv]; rfl
  have f2 : (env 2).fails = false := by rw [← henv]; rfl
  have f3 : (env 3).fails = true := by rw [← henv]; rfl
  have d3 : delivered env 3 = [] := by rw [← henv]; rfl
  generalize hreq : command s.sessionId 0x0E [.class' x, .instance' y, .attribute z] [] = req
  let u : UDPSocket := match dns host ioPort with | [] => k.udp | e :: _ => { k.udp with remoteEndpoint := e }
  have hu : UDPSocket.open ⟨dns host ioPort, true, true, fun _ => true⟩ k.udp = (.throw systemError, u) := by
    simp only [UDPSocket.open, u]
    cases dns host ioPort with
    | nil => rfl
    | cons e more => simp [ioOpen]
  let t1 : TCPSocket := { k.tcp with isOpen := true, peer := some ep, inbox := [] }
  let t2 : TCPSocket := { t1 with sent := k.tcp.sent ++ [(ep, req)] }
  let w0 : World := ⟨s, env, 0, []⟩
  let w1 : World := w0.log [.opened .tcp host port true, .opened .io host ioPort false]
  let w2 : World := (w1.after (.sent .tcp req true)).after (.received .tcp [] false)
  refine ⟨env, ep, ⟨t2, u⟩, w2, by rw [← name]; exact hm, ?_, rfl⟩
  refine .call (k' := ⟨t1, u⟩) (w' := w1) (as := [.call (.opened .tcp host port true), .call (.opened .io host ioPort false)])
    ⟨?_, rfl, ?_⟩ (by rintro ⟨_, ⟨⟩⟩) ?_
  · have hc := open_cases host port ioPort w0
    show Session.open host port ioPort w0 = _
    generalize Session.open host port ioPort w0 = r at hc ⊢
    cases hc with
    | ioFails => rfl
    | tcpFails h => exact absurd (h.symm.trans f0) (by simp)
    | sendFails _ h => exact absurd (h.symm.trans f1) (by simp)
    | receiveFails _ h => exact absurd (h.symm.trans f1) (by simp)
    | registered _ h => exact absurd (h.2.1.symm.trans f1) (by simp)
    | hollow h => exact absurd (h.2.1.symm.trans f1) (by simp)
    | rejected _ h => exact absurd (h.2.1.symm.trans f1) (by simp)
    | tcpCloseFails h => exact absurd (h.2.1.symm.trans f1) (by simp)
    | ioCloseFails h => exact absurd (h.2.1.symm.trans f1) (by simp)
  · exact .cons (.tcpOpen k host port te (.inl name) true _ ht)
      (.cons (.udpOpen ⟨t1, k.udp⟩ host ioPort _ (.inl rfl) false u hu) (.nil _))
  refine .call (k' := ⟨t2, u⟩) (w' := w2) (as := [.call (.sent .tcp req true), .call (.received .tcp [] false)])
    ⟨?_, by simp [w2, World.after, calls_call, calls_nil], ?_⟩ (by rintro ⟨_, ⟨⟩⟩) (.nil _ _)
  · have e : Op.run (.getAttribute δ c init x y z) w1 =
      match Session.getSingleAttributeSerializable c x y z (init, w1) with
      | (r, (_, w')) => (r, w') := rfl
    rw [getAttr_eq] at e
    have rr := getAttr_cases x y z w1
    have hs : w1.s.sessionId = s.sessionId := rfl
    rw [hs, hreq] at rr
    generalize Session.sendRRDataCommand 0x0E (Path.mk3 x y z) none w1 = q at rr e
    cases rr with
    | sendFails h => exact absurd (h.symm.trans f2) (by simp)
    | receiveFails h h' =>
      rw [e]
      have : delivered w1.env (w1.clock + 1) = [] := d3
      rw [this]
    | replied h => exact absurd (h.2.symm.trans f3) (by simp)
  · refine .cons (k' := ⟨t2, u⟩) (.tcpSend ⟨t1, u⟩ req (some req.length) req.length true t2 ?_)
      (.cons (.tcpReceive ⟨t2, u⟩ none [] false t2 rfl) (.nil _))
    simp [t1, t2, TCPSocket.send]

/-! ### C111 -/

theorem receivedBytes_append (a b : List NetAct) : receivedBytes (a ++ b) = receivedBytes a ++ receivedBytes b := by
  induction a with
  | nil => rfl
  | cons x a ih =>
    cases x with
    | call ev =>
      cases ev with
      | received s d ok =>
        cases s <;> cases ok <;> simp [receivedBytes, ih]
      | _ => simp [receivedBytes, ih]
    | bytes b => simp [receivedBytes, ih]
    | datagram s b => simp [receivedBytes, ih]

/-- The bytes received are those that arrived; what is left is in the inbox, as long as the connection stands. -/
def Streamed (received arrived : Bytes) (t : TCPSocket) : Prop :=
  received <+: arrived ∧ (t.isOpen = true → t.peer ≠ none → received ++ t.inbox = arrived)

theorem streamed_open {r a : Bytes} {env : OpenEnv} {t t' : TCPSocket} {e : Exn} (h : Streamed r a t)
    (ho : TCPSocket.open env t = (.throw e, t')) : Streamed r a t' := by
  unfold TCPSocket.open at ho
  split at ho
  · cases ho; exact h
  · next eps hn =>
    refine ⟨h.1, fun _ hp => ?_⟩
    rcases TCPSocket.connect_throw env _ t t' e ho with rfl | hc
    · exact h.2 ‹_› hp
    · exact absurd hc hp

theorem AllHappen.streamed {k k' : Sockets} {as : List NetAct} (h : AllHappen dns k as k') :
    ∀ {r a : Bytes}, Streamed r a k.tcp → (∀ host port, .opened .tcp host port true ∉ calls as) →
      Streamed (r ++ receivedBytes as) (a ++ arrivedBytes as) k'.tcp := by
  induction h with
  | nil => intro r a hs _; simpa [receivedBytes, arrivedBytes] using hs
  | @cons k1 k2 k3 x as h tail ih =>
    intro r a hs no
    simp only [mem_calls, List.mem_cons, not_or] at no ih
    have no' := fun host port => (no host port).2
    cases h with
    | tcpOpen host port env known ok t e =>
      cases ok with
      | true => exact absurd rfl (no host port).1
      | false => exact ih (streamed_open hs e) no'
    | tcpClose works ok t e =>
      obtain rfl : _ = t := congrArg Prod.snd e
      exact ih ⟨hs.1, fun h => (nomatch h)⟩ no'
    | tcpSend b acc n ok t e =>
      obtain ⟨h1, h2, h3, _⟩ := TCPSocket.send_sent e
      exact ih ⟨hs.1, by rw [h1, h2, h3]; exact hs.2⟩ no'
    | tcpReceive d b ok t e =>
      unfold TCPSocket.receive at e
      split at e
      · next ho hp =>
        have hs2 := hs.2 ho (by simp [hp])
        split at e
        · next hi => cases ok <;> simp at e
        · cases ok with
          | false => simp at e
          | true =>
            simp only [if_true, Prod.mk.injEq, Res.ok.injEq, Option.some.injEq] at e
            obtain ⟨e1, e2⟩ := e
            have : Streamed (r ++ b) a t := by
              subst e1 e2
              refine ⟨?_, fun _ _ => ?_⟩
              · rw [← hs2]
                exact List.prefix_append_right_inj _ |>.2 (List.take_prefix _ _)
              · rw [← hs2, List.append_assoc, List.take_append_drop]
            have := ih this no'
            simpa [receivedBytes, arrivedBytes, List.append_assoc] using this
      · cases ok with
        | true => simp at e
        | false =>
          have : t = k1.tcp := by simpa using (congrArg Prod.snd e).symm
          subst this
          exact ih hs no'
    | bytes b =>
      have : Streamed r (a ++ b) (k1.tcp.arrive b) := by
        refine ⟨hs.1.trans (List.prefix_append _ _), ?_⟩
        unfold TCPSocket.arrive
        split
        · next p ho hp =>
          intro _ _
          show r ++ (k1.tcp.inbox ++ b) = _
          rw [← List.append_assoc, hs.2 ho (by simp [hp])]
        · next hn =>
          intro ho hp
          cases hq : k1.tcp.peer with
          | none => exact absurd hq hp
          | some p => exact absurd hq (hn p ho)
      have := ih this no'
      simpa [receivedBytes, arrivedBytes, List.append_assoc] using this
    | udpOpen => exact ih hs no'
    | udpClose => exact ih hs no'
    | udpSend => exact ih hs no'
    | udpReceive b ok u e =>
      have : receivedBytes (.call (.received .io b ok) :: as) = receivedBytes as := rfl
      rw [this]
      exact ih hs no'
    | datagram => exact ih hs no'

/-- C111: the control socket. Whatever happened before, the bytes received over a connection are, in order and without a
gap, the bytes that arrived over it. -/
theorem c111_tcp {k k' : Sockets} {before after : List NetAct} {host port : String}
    (h : AllHappen dns k (before ++ .call (.opened .tcp host port true) :: after) k')
    (same : ∀ host port, .opened .tcp host port true ∉ calls after) :
    receivedBytes after <+: arrivedBytes after := by
  obtain ⟨k1, _, b⟩ := h.split
  cases b with
  | cons o t =>
    cases o with
    | tcpOpen host port env known ok t' e =>
      obtain ⟨ep, _, _, _, _, hi⟩ := TCPSocket.open_peer e
      have : Streamed [] [] t' := ⟨List.prefix_refl _, fun _ _ => by simp [hi]⟩
      simpa using (t.streamed this same).1

/-- The I/O socket stays open and loses nothing in between: what was received and what waits. -/
structure Queued (n : Nat) (received arrived : List Bytes) (u : UDPSocket) : Prop where
  received : received = (arrived.take n).map (·.take 4096)
  short : n ≤ arrived.length
  waiting : u.inbox.map (·.2) = arrived.drop n
  isOpen : u.isOpen = true
  bound : u.bound = true

theorem take_append_short {α : Type} {n : Nat} (a b : List α) (h : n ≤ a.length) : (a ++ b).take n = a.take n :=
  List.take_append_of_le_length h

theorem AllHappen.queued {k k' : Sockets} {as : List NetAct} (h : AllHappen dns k as k') :
    ∀ {n : Nat} {r a : List Bytes}, Queued n r a k.udp → (∀ ok, .closed .io ok ∉ calls as) →
      ∃ m, Queued m (r ++ receivedDatagrams as) (a ++ arrivedDatagrams as) k'.udp := by
  induction h with
  | nil => intro n r a hs _; exact ⟨n, by simpa [receivedDatagrams, arrivedDatagrams] using hs⟩
  | @cons k1 k2 k3 x as h tail ih =>
    intro n r a hs no
    simp only [mem_calls, List.mem_cons, not_or] at no ih
    have no' := fun ok => (no ok).2
    cases h with
    | udpOpen host port env known ok u e =>
      refine ih (n := n) ?_ no'
      show Queued n r a u
      unfold UDPSocket.open at e
      split at e
      · obtain rfl : k1.udp = u := congrArg Prod.snd e
        exact hs
      · dsimp only at e
        rw [if_pos hs.isOpen] at e
        obtain rfl : _ = u := congrArg Prod.snd e
        exact ⟨hs.received, hs.short, hs.waiting, hs.isOpen, hs.bound⟩
    | udpClose works ok u e => exact absurd rfl (no ok).1
    | udpSend b acc m ok u e =>
      refine ih (n := n) ?_ no'
      show Queued n r a u
      unfold UDPSocket.send at e
      split at e
      · obtain rfl : _ = u := congrArg Prod.snd e
        exact hs
      · obtain rfl : _ = u := congrArg Prod.snd e
        exact ⟨hs.received, hs.short, hs.waiting, hs.isOpen, rfl⟩
    | udpReceive b ok u e =>
      unfold UDPSocket.receive at e
      rw [if_neg (by simp [hs.isOpen])] at e
      split at e
      · cases ok <;> cases congrArg Prod.fst e
      · next d rest hi =>
        cases ok with
        | false => cases congrArg Prod.fst e
        | true =>
          have e1 : d.2.take 4096 = b := by simpa using congrArg Prod.fst e
          obtain rfl : _ = u := congrArg Prod.snd e
          have hw := hs.waiting
          rw [hi] at hw
          have hlt : n < a.length := by
            have := congrArg List.length hw
            simp at this
            omega
          have hd : a.drop n = a[n] :: a.drop (n + 1) := List.drop_eq_getElem_cons hlt
          rw [hd] at hw
          simp only [List.map_cons, List.cons.injEq] at hw
          have : Queued (n + 1) (r ++ [b]) a { k1.udp with inbox := rest } := by
            refine ⟨?_, hlt, hw.2, hs.isOpen, hs.bound⟩
            rw [List.take_succ_eq_append_getElem hlt, List.map_append, ← hs.received, ← e1, hw.1]
            rfl
          obtain ⟨m, q⟩ := ih this no'
          exact ⟨m, by simpa [receivedDatagrams, arrivedDatagrams, List.append_assoc] using q⟩
    | datagram s b =>
      have : Queued n r (a ++ [b]) (k1.udp.arrive s b) := by
        unfold UDPSocket.arrive
        rw [if_pos (by simp [hs.isOpen, hs.bound])]
        refine ⟨?_, ?_, ?_, hs.isOpen, hs.bound⟩
        · rw [take_append_short _ _ hs.short]; exact hs.received
        · have := hs.short; simp; omega
        · have := hs.waiting
          simp only [List.map_append, List.map_cons, List.map_nil, this]
          rw [List.drop_append_of_le_length hs.short]
      obtain ⟨m, q⟩ := ih this no'
      exact ⟨m, by simpa [receivedDatagrams, arrivedDatagrams, List.append_assoc] using q⟩
    | tcpOpen => exact ih hs no'
    | tcpClose => exact ih hs no'
    | tcpSend => exact ih hs no'
    | tcpReceive d b ok t e =>
      have : receivedDatagrams (.call (.received .tcp b ok) :: as) = receivedDatagrams as := rfl
      rw [this]
      exact ih hs no'
    | bytes b => exact ih hs no'

theorem AllHappen.empty_when_closed {k k' : Sockets} {as : List NetAct} (h : AllHappen dns k as k')
    (hi : k.udp.isOpen = false → k.udp.inbox = []) : k'.udp.isOpen = false → k'.udp.inbox = [] := by
  induction h with
  | nil => exact hi
  | @cons k1 k2 k3 x as h tail ih =>
    refine ih ?_
    cases h with
    | udpOpen host port env known ok u e =>
      intro ho
      have ho : u.isOpen = false := ho
      show u.inbox = []
      obtain ⟨_, e1, ⟨_, _, rfl⟩ | ⟨ep, more, _, _, ⟨_, h1⟩ | ⟨_, _, _, _, h1⟩ | ⟨_, _, _, _, h1, _⟩⟩⟩ := UDPSocket.open_cases e
      · exact hi ho
      · rw [e1]; exact hi (h1.symm.trans ho)
      · rw [ho] at h1; cases h1
      · rw [ho] at h1; cases h1
    | udpClose works ok u e =>
      obtain rfl : _ = u := congrArg Prod.snd e
      exact fun _ => rfl
    | udpSend b acc m ok u e =>
      obtain ⟨h1, _, h2, _⟩ := UDPSocket.send_sent e
      intro ho
      show u.inbox = []
      rw [h2]
      exact hi (h1.symm.trans ho)
    | udpReceive b ok u e =>
      intro ho
      have ho : u.isOpen = false := ho
      show u.inbox = []
      have h1 := (UDPSocket.receive_same e).1
      unfold UDPSocket.receive at e
      split at e
      · obtain rfl : _ = u := congrArg Prod.snd e
        exact hi ho
      · next hc => rw [h1] at ho; simp [ho] at hc
    | datagram s b =>
      intro ho
      show (k1.udp.arrive s b).inbox = []
      have ho : (k1.udp.arrive s b).isOpen = false := ho
      rw [(UDPSocket.arrive_same k1.udp s b).1] at ho
      simp [UDPSocket.arrive, ho]
      exact hi ho
    | tcpOpen => exact hi
    | tcpClose => exact hi
    | tcpSend => exact hi
    | tcpReceive => exact hi
    | bytes => exact hi

/-- C111: the I/O socket. From sockets that were new at the beginning, whatever happened since, what is received after the I/O
socket was opened and before it is closed are datagrams that arrived meanwhile: the first ones, in order, each once, cut to
4096 bytes. -/
theorem c111_udp {k k' : Sockets} {before after : List NetAct} {host port : String} (fresh : Sockets.Fresh k)
    (h : AllHappen dns k (before ++ .call (.opened .io host port true) :: after) k')
    (same : ∀ ok, .closed .io ok ∉ calls after) :
    ∃ n, receivedDatagrams after = ((arrivedDatagrams after).take n).map (·.take 4096) := by
  obtain ⟨k1, a, b⟩ := h.split
  have he := a.empty_when_closed (by obtain ⟨_, here, e⟩ := fresh; rw [e]; exact fun _ => rfl)
  cases b with
  | cons o t =>
    cases o with
    | udpOpen host port env known ok u e =>
      obtain ⟨_, e1, ⟨hr, _⟩ | ⟨ep', more, hres, hrem, ⟨hr, _⟩ | ⟨hr, _⟩ | ⟨_, hc, _, _, hu, hb⟩⟩⟩ := UDPSocket.open_cases e
      · simp at hr
      · simp at hr
      · simp at hr
      · have hi : u.inbox = [] := e1.trans (he hc)
        have : Queued 0 [] [] u := ⟨rfl, Nat.le_refl _, by simp [hi], hu, hb⟩
        obtain ⟨m, q⟩ := t.queued this same
        exact ⟨m, by simpa using q.received⟩

/-- Everything that happens in a history happens to the sockets. -/
theorem NetHistory.happen {k k' : Sockets} {w w' : World} {ops : List (Op × Res Unit)} (h : NetHistory dns k w ops k' w') :
    ∃ as, AllHappen dns k as k' ∧ w'.trace = w.trace ++ calls as := by
  induction h with
  | nil => exact ⟨[], .nil _, by simp [calls_nil]⟩
  | @arrive k1 k2 k3 w w' ops a network h t ih =>
    obtain ⟨as, h1, h2⟩ := ih
    refine ⟨a :: as, .cons h h1, ?_⟩
    have : calls (a :: as) = calls [a] ++ calls as := calls_append [a] as
    rw [this, network]
    exact h2
  | call h defined t ih =>
    obtain ⟨as, h1, h2⟩ := ih
    exact ⟨_, h.happen.append h1, by rw [h2, h.trace, calls_append, List.append_assoc]⟩

/-- C111 for a session: the handle a successful `open` adopts was sent by the device over the connection just made: it is in
the bytes that arrived after the connection was made. -/
theorem c111_registration {k k' : Sockets} {w w' : World} {host port ioPort : String} {as : List NetAct}
    (h : NetStep dns k w (.open host port ioPort) (.ok ()) as k' w') :
    ∃ before after reply, as = before ++ .call (.opened .tcp host port true) :: after ∧
      Registers w.s.sessionId reply w'.s.sessionId ∧ reply <+: arrivedBytes after := by
  have hc := open_cases host port ioPort w
  have run : Session.open host port ioPort w = (.ok (), w') := h.run
  rw [run] at hc
  have ht := h.trace
  clear run
  generalize hr : ((Res.ok (), w') : Res Unit × World) = r at hc
  cases hc with
  | registered handle hw hreg =>
    cases hr
    have hm : calls as = [] ++ .opened .tcp host port true :: [.opened .io host ioPort true, .sent .tcp registration true,
        .received .tcp (delivered w.env (w.clock + 3)) true] := by
      have := (List.append_cancel_left ht).symm
      simpa [openEvents] using this
    obtain ⟨x, y, rfl, x1, y1⟩ := calls_at hm
    refine ⟨x, y, _, rfl, hreg, ?_⟩
    have hp := c111_tcp h.happen (by rw [y1]; simp)
    have hd : receivedBytes y = delivered w.env (w.clock + 3) := by
      obtain ⟨x', y', rfl, x2, y2⟩ := calls_at (es := [.opened .io host ioPort true, .sent .tcp registration true]) y1
      have none : ∀ l : List NetAct, (∀ b, .received .tcp b true ∉ calls l) → receivedBytes l = [] := by
        intro l hl
        induction l with
        | nil => rfl
        | cons a l ih =>
          simp only [mem_calls, List.mem_cons, not_or] at hl ih
          have := ih (fun b => (hl b).2)
          cases a with
          | call ev =>
            cases ev with
            | received s d ok =>
              cases s <;> cases ok <;> first | exact absurd rfl (hl d).1 | exact this
            | _ => exact this
          | _ => exact this
      rw [receivedBytes_append, none x' (by rw [x2]; simp)]
      show [] ++ (_ ++ receivedBytes y') = _
      rw [none y' (by rw [y2]; simp)]
      simp
    rw [← hd]
    exact hp
  | _ => cases hr

/-! ### The properties on a concrete network -/

/-- A session opened once, from new sockets, is routed to its device (C110). -/
example (s : Session) (h : s.sessionId = 0) : ∃ env k' w',
    NetHistory exampleDns exampleSockets ⟨s, env, 0, []⟩ [(.open "device" "44818" "2222", .ok ())] k' w' ∧
      RoutedTo exampleDns k' "device" "44818" "2222" := by
  obtain ⟨env, as, k', w', a, b, _⟩ := c109_opens_partial (dns := exampleDns) exampleSockets rfl s h "device" "44818" "2222"
    (exampleOpen 44818) (exampleOpen 2222) (by decide) ⟨rfl, _, List.mem_cons_self, rfl⟩ (by simp [udpWorks, exampleOpen])
    exampleRegistration 7 exampleRegistration_registers (by decide)
  have hist : NetHistory exampleDns exampleSockets ⟨s, env, 0, []⟩ [(.open "device" "44818" "2222", .ok ())] k' w' :=
    .call a (by rintro ⟨_, ⟨⟩⟩) (.nil _ _)
  obtain ⟨x, y, z, e, q, _⟩ := c110_route_partial hist h (by simp [OpensWhenClosed]) (by rw [b]; decide)
  refine ⟨env, k', w', hist, ?_⟩
  simp only [lastOpened, Option.some.injEq, Prod.mk.injEq] at e
  obtain ⟨rfl, rfl, rfl⟩ := e
  refine q fun sock hm => ?_
  have hc := open_cases "device" "44818" "2222" ⟨s, env, 0, []⟩
  have run : Session.open "device" "44818" "2222" ⟨s, env, 0, []⟩ = (.ok (), w') := a.run
  rw [run] at hc
  clear run
  generalize hr : ((Res.ok (), w') : Res Unit × World) = r at hc
  cases hc with
  | registered => cases hr; simp [openEvents, World.replied, World.logS] at hm
  | _ => cases hr

/-- Bytes of an earlier connection, a new connection, an answer that comes in two pieces (C111). -/
example : ∃ k', AllHappen exampleDns exampleSockets
    ([.call (.opened .tcp "device" "44818" true), .bytes [1, 2]] ++ .call (.opened .tcp "device" "44818" true) ::
      [.bytes [3], .bytes [4, 5], .call (.received .tcp [3, 4] true)]) k' ∧ k'.tcp.inbox = [5] := by
  refine ⟨_, .cons (.tcpOpen _ _ _ (exampleOpen 44818) (.inl (by decide)) _ _ rfl) (.cons (.bytes _ _)
    (.cons (.tcpOpen _ _ _ (exampleOpen 44818) (.inl (by decide)) _ _ rfl) (.cons (.bytes _ _) (.cons (.bytes _ _)
      (.cons (.tcpReceive _ (some 2) _ _ _ rfl) (.nil _)))))), rfl⟩

/-- A datagram for the socket before it was opened is lost, the next one is received (C111). -/
example : ∃ k', AllHappen exampleDns exampleSockets
    ([.datagram ⟨1, 2⟩ [1]] ++ .call (.opened .io "device" "2222" true) ::
      [.datagram ⟨1, 2⟩ [2], .datagram ⟨1, 2⟩ [3], .call (.received .io [2] true)]) k' ∧
    k'.udp.inbox = [(⟨1, 2⟩, [3])] := by
  refine ⟨_, .cons (.datagram _ _ _) (.cons (.udpOpen _ _ _ (exampleOpen 2222) (.inl (by decide)) _ _ rfl)
    (.cons (.datagram _ _ _) (.cons (.datagram _ _ _) (.cons (.udpReceive _ _ _ _ rfl) (.nil _))))), rfl⟩

/-- The second device accepts the connection: `open` fails, and the next request goes there with the handle of the first. -/
example (s : Session) : ∃ env ep k' w', ep ∈ exampleDns "other" "44818" ∧
    NetHistory exampleDns { exampleSockets with udp := { exampleSockets.udp with isOpen := true } } ⟨s, env, 0, []⟩
      [(.open "other" "44818" "2222", .throw systemError), (.getAttribute _ (SerializablePrimitive.cls .u16) ⟨0⟩ 1 1 1, .throw systemError)] k' w' ∧
    k'.tcp.sent = [(ep, command s.sessionId 0x0E [.class' 1, .instance' 1, .attribute 1] [])] :=
  c110_violated_request _ rfl s "other" "44818" "2222" (exampleOpen 44818) (by decide) ⟨rfl, _, List.mem_cons_self, rfl⟩ _
    (SerializablePrimitive.cls .u16) ⟨0⟩ 1 1 1

end Eip
