import Verif.Props.Possible
/-
C122: what becomes of a session whose `close` failed, on the sockets of the library.
-/
namespace Eip
open Spec

variable {dns : String → String → List Endpoint}

/-! ### A closed control socket stays closed, and nothing leaves it -/

theorem Happens.tcp_closed {k k' : Sockets} {a : NetAct} (h : Happens dns k a k') (c : k.tcp.isOpen = false)
    (no : ∀ host port ok, a ≠ .call (.opened .tcp host port ok)) :
    k'.tcp.isOpen = false ∧ k'.tcp.sent = k.tcp.sent ∧ ∀ b, a ≠ .call (.sent .tcp b true) := by
  cases h with
  | tcpOpen host port env known ok t e => exact absurd rfl (no host port ok)
  | tcpClose works ok t e =>
    obtain rfl : _ = t := congrArg Prod.snd e
    exact ⟨rfl, rfl, by rintro _ ⟨⟩⟩
  | tcpSend b acc n ok t e =>
    unfold TCPSocket.send at e
    rw [c] at e
    have e2 : k.tcp = t := congrArg Prod.snd e
    subst e2
    refine ⟨c, rfl, ?_⟩
    rintro _ ⟨⟩
    cases congrArg Prod.fst e
  | tcpReceive d b ok t e =>
    obtain ⟨h1, _, h2⟩ := TCPSocket.receive_same e
    exact ⟨h1.trans c, h2, by rintro _ ⟨⟩⟩
  | bytes b =>
    obtain ⟨h1, _, h2⟩ := TCPSocket.arrive_same k.tcp b
    exact ⟨h1.trans c, h2, by rintro _ ⟨⟩⟩
  | udpOpen => exact ⟨c, rfl, by rintro _ ⟨⟩⟩
  | udpClose => exact ⟨c, rfl, by rintro _ ⟨⟩⟩
  | udpSend => exact ⟨c, rfl, by rintro _ ⟨⟩⟩
  | udpReceive => exact ⟨c, rfl, by rintro _ ⟨⟩⟩
  | datagram => exact ⟨c, rfl, by rintro _ ⟨⟩⟩

theorem AllHappen.tcp_closed {k k' : Sockets} {as : List NetAct} (h : AllHappen dns k as k') (c : k.tcp.isOpen = false)
    (no : ∀ host port ok, .opened .tcp host port ok ∉ calls as) :
    k'.tcp.isOpen = false ∧ k'.tcp.sent = k.tcp.sent ∧ ∀ b, .sent .tcp b true ∉ calls as := by
  induction h with
  | nil => exact ⟨c, rfl, by simp [calls]⟩
  | @cons k1 k2 k3 a as h t ih =>
    simp only [mem_calls, List.mem_cons, not_or] at no ih ⊢
    obtain ⟨h1, h2, h3⟩ := h.tcp_closed c fun host port ok e => (no host port ok).1 e.symm
    obtain ⟨i1, i2, i3⟩ := ih h1 fun host port ok => (no host port ok).2
    exact ⟨i1, i2.trans h2, fun b => ⟨fun e => h3 b e.symm, i3 b⟩⟩

theorem NetStep.opens_nothing {k k' : Sockets} {w w' : World} {op : Op} {r : Res Unit} {as : List NetAct}
    (h : NetStep dns k w op r as k' w') (no : ∀ a b c, op ≠ .open a b c) (s : Sock) (host port : String) (ok : Bool) :
    .opened s host port ok ∉ calls as := by
  by_cases hp : op.plain
  · intro hm
    exact plain_events op hp w (by rw [h.run]; exact h.trace) _ hm
  · cases op with
    | «open» a b c => exact absurd rfl (no a b c)
    | close =>
      have hc := close_cases w
      have run : Session.close w = (r, w') := h.run
      rw [run] at hc
      have ht := h.trace
      clear run
      generalize hx : ((r, w') : Res Unit × World) = q at hc
      cases hc <;> cases hx <;> rw [(List.append_cancel_left ht).symm] <;> simp
    | _ => exact absurd trivial hp

/-- Over a closed control socket `close` throws and changes nothing. -/
theorem NetStep.close_closed {k k' : Sockets} {w w' : World} {r : Res Unit} {as : List NetAct}
    (h : NetStep dns k w .close r as k' w') (c : k.tcp.isOpen = false) : r = .throw systemError ∧ w'.s = w.s := by
  obtain ⟨_, _, no⟩ := h.happen.tcp_closed c (h.opens_nothing (by simp) .tcp)
  have hc := close_cases w
  have run : Session.close w = (r, w') := h.run
  rw [run] at hc
  have ht := h.trace
  clear run
  generalize hx : ((r, w') : Res Unit × World) = q at hc
  cases hc with
  | sendFails => cases hx; exact ⟨rfl, rfl⟩
  | tcpFails => cases hx; exact ⟨rfl, rfl⟩
  | ioFails => cases hx; exact ⟨rfl, rfl⟩
  | closed =>
    cases hx
    have hm : calls as = _ := (List.append_cancel_left ht).symm
    exact absurd (by rw [hm]; simp) (no (request 0x66 w.s.sessionId []))

/-- A `close` in which closing a socket failed leaves the control socket closed. -/
theorem NetStep.close_fails {k k' : Sockets} {w w' : World} {r : Res Unit} {as : List NetAct} {s : Sock}
    (h : NetStep dns k w .close r as k' w') (fails : .closed s false ∈ calls as) :
    r = .throw systemError ∧ w'.s = w.s ∧ k'.tcp.isOpen = false ∧ (s = .io → k'.udp.isOpen = false) ∧
      (s = .tcp → k'.udp.isOpen = k.udp.isOpen) := by
  have hc := close_cases w
  have run : Session.close w = (r, w') := h.run
  rw [run] at hc
  have ht := h.trace
  clear run
  generalize hx : ((r, w') : Res Unit × World) = q at hc
  cases hc with
  | sendFails =>
    cases hx
    have hm : calls as = _ := (List.append_cancel_left ht).symm
    rw [hm] at fails
    simp at fails
  | closed =>
    cases hx
    have hm : calls as = _ := (List.append_cancel_left ht).symm
    rw [hm] at fails
    simp at fails
  | tcpFails =>
    cases hx
    have hm : calls as = [.sent .tcp (request 0x66 w.s.sessionId []) true] ++ .closed .tcp false :: [] :=
      (List.append_cancel_left ht).symm
    have hs : s = .tcp := by rw [hm] at fails; simpa using fails
    obtain ⟨k1, k2, x, y, h1, x1, b, h2, y1⟩ := h.happen.at hm
    have c : k2.tcp.isOpen = false := by
      cases b with
      | tcpClose works ok t e => obtain rfl : _ = t := congrArg Prod.snd e; rfl
    have u := h.happen.udp_same (by rw [hm]; simp [Ev.touchesIO])
    exact ⟨rfl, rfl, (h2.tcp_closed c (by rw [y1]; simp)).1, by rw [hs]; rintro ⟨⟩, fun _ => u⟩
  | ioFails =>
    cases hx
    have hm : calls as = [.sent .tcp (request 0x66 w.s.sessionId []) true] ++ .closed .tcp true :: [.closed .io false] :=
      (List.append_cancel_left ht).symm
    have hs : s = .io := by rw [hm] at fails; simpa using fails
    obtain ⟨k1, k2, x, y, h1, x1, b, h2, y1⟩ := h.happen.at hm
    obtain ⟨k3, k4, x', y', h3, x2, b', h4, y2⟩ := h2.first y1
    have c : k2.tcp.isOpen = false := by
      cases b with
      | tcpClose works ok t e => obtain rfl : _ = t := congrArg Prod.snd e; rfl
    have c' : k4.udp.isOpen = false := by
      cases b' with
      | udpClose works ok u e => obtain rfl : _ = u := congrArg Prod.snd e; rfl
    have r2 := h4.route (plain_of_none y2)
    exact ⟨rfl, rfl, (h2.tcp_closed c (by rw [y1]; simp)).1, fun _ => r2.udpOpen.trans c', by rw [hs]; rintro ⟨⟩⟩

/-! ### C122 -/

/-- C122 does not hold: if a `close` fails because closing one of the sockets reports an error, the session keeps its id,
but its control socket is closed. From then on, until the session is opened again, every `close` throws and no request
leaves. -/
theorem c122_violated {k k' k'' : Sockets} {w w' w'' : World} {r : Res Unit} {as : List NetAct} {s : Sock}
    {ops : List (Op × Res Unit)} (h : NetStep dns k w .close r as k' w') (fails : .closed s false ∈ calls as)
    (rest : NetHistory dns k' w' ops k'' w'') (unopened : ∀ x ∈ ops, ∀ a b c, x.1 ≠ .open a b c) :
    r = .throw systemError ∧ w''.s.sessionId = w.s.sessionId ∧ k''.tcp.isOpen = false ∧ k''.tcp.sent = k'.tcp.sent ∧
      ∀ x ∈ ops, x.1 = .close → x.2 = .throw systemError := by
  obtain ⟨hr, hs, hc, rest'⟩ := h.close_fails fails
  rw [← hs]
  clear hs fails h rest'
  refine ⟨hr, ?_⟩
  clear hr
  induction rest with
  | nil => exact ⟨rfl, hc, rfl, by simp⟩
  | arrive network h t ih =>
    have r := h.arrival network
    obtain ⟨i1, i2, i3, i4⟩ := ih unopened (r.tcpOpen.trans hc)
    obtain ⟨_, s1, _⟩ := h.tcp_closed hc (by rintro _ _ _ rfl; cases network)
    exact ⟨i1, i2, i3.trans s1, i4⟩
  | @call k1 k2 k3 w1 w2 w3 op r as ops h defined t ih =>
    have no := unopened (op, r) List.mem_cons_self
    obtain ⟨c1, s1, _⟩ := h.happen.tcp_closed hc (h.opens_nothing no .tcp)
    obtain ⟨i1, i2, i3, i4⟩ := ih (fun x hx => unopened x (List.mem_cons_of_mem _ hx)) c1
    have id : w2.s.sessionId = w1.s.sessionId := by
      by_cases hp : op.plain
      · exact h.keeps_id hp
      · cases op with
        | «open» a b c => exact absurd rfl (no a b c)
        | close => rw [(h.close_closed hc).2]
        | _ => exact absurd trivial hp
    refine ⟨i1.trans id, i2, i3.trans s1, fun x hx e => ?_⟩
    rcases List.mem_cons.1 hx with rfl | hx
    · cases e; exact (h.close_closed hc).1
    · exact i4 x hx e

/-- C122: opening the session again does not help either, unless the device happens to give it the id it had: if it was the
control socket that failed to close, the I/O socket is still open and `open` throws; otherwise `open` throws if the device
gives another id. -/
theorem c122_violated_reopen {k k' k'' : Sockets} {w w' w'' : World} {r r' : Res Unit} {as as' : List NetAct} {s : Sock}
    {host port ioPort : String} (h : NetStep dns k w .close r as k' w') (fails : .closed s false ∈ calls as)
    (registered : w.s.sessionId ≠ 0) (ioOpen : k.udp.isOpen = true)
    (again : NetStep dns k' w' (.open host port ioPort) r' as' k'' w'') :
    w''.s.sessionId = w.s.sessionId ∧ (s = .tcp → r' = .throw systemError) := by
  obtain ⟨_, hs, hc, _, ho⟩ := h.close_fails fails
  constructor
  · rw [← hs]
    have hc := open_cases host port ioPort w'
    have run : Session.open host port ioPort w' = (r', w'') := again.run
    rw [run] at hc
    clear run
    generalize hx : ((r', w'') : Res Unit × World) = q at hc
    cases hc with
    | registered handle hw hreg =>
      cases hx
      obtain ⟨_, _, ac, _⟩ := hreg
      rw [← hs] at registered
      rcases ac with ac | ac
      · exact absurd ac.1 registered
      · exact ac.2
    | _ => cases hx; rfl
  · intro e
    exact (again.stuck ((ho e).trans ioOpen) (by simp)).2.2 ⟨_, _, _, rfl⟩

/-- C122: what `close` needs on the sockets of the library: it can succeed exactly if the control socket is connected. -/
theorem c122_connected_partial (k : Sockets) (s : Session) :
    (∃ w as k' w', w.s = s ∧ NetStep dns k w .close (.ok ()) as k' w') ↔ k.tcp.isOpen = true ∧ k.tcp.peer ≠ none := by
  constructor
  · rintro ⟨w, as, k', w', _, h⟩
    have hc := close_cases w
    have run : Session.close w = (.ok (), w') := h.run
    rw [run] at hc
    have ht := h.trace
    clear run
    generalize hx : ((Res.ok (), w') : Res Unit × World) = q at hc
    cases hc with
    | closed =>
      cases hx
      have hm : calls as = .sent .tcp (request 0x66 w.s.sessionId []) true :: [.closed .tcp true, .closed .io true] :=
        (List.append_cancel_left ht).symm
      obtain ⟨k1, k2, x, y, h1, x1, b, h2, y1⟩ := h.happen.first hm
      have r1 := h1.route (plain_of_none x1)
      rw [← r1.tcpOpen, ← r1.peer]
      cases b with
      | tcpSend b acc n ok t e =>
        unfold TCPSocket.send at e
        split at e
        · next p m ho hp => exact ⟨ho, by rw [hp]; simp⟩
        · cases congrArg Prod.fst e
    | _ => cases hx
  · rintro ⟨ho, hp⟩
    obtain ⟨p, hp⟩ := Option.ne_none_iff_exists'.1 hp
    let w : World := ⟨s, fun _ => ⟨false, [], 0⟩, 0, []⟩
    have hc := close_cases w
    have ok : ∃ w', Session.close w = (.ok (), w') ∧ w'.trace = w.trace ++
        [.sent .tcp (request 0x66 s.sessionId []) true, .closed .tcp true, .closed .io true] := by
      generalize Session.close w = q at hc
      cases hc with
      | closed => exact ⟨_, rfl, rfl⟩
      | sendFails h => cases h
      | tcpFails _ h => cases h
      | ioFails _ _ h => cases h
    obtain ⟨w', h1, h2⟩ := ok
    let req := request 0x66 s.sessionId []
    let t1 : TCPSocket := { k.tcp with sent := k.tcp.sent ++ [(p, req)] }
    refine ⟨w, [.call (.sent .tcp req true), .call (.closed .tcp true), .call (.closed .io true)],
      ⟨(TCPSocket.close true t1).2, (UDPSocket.close true k.udp).2⟩, w', rfl, h1, h2, ?_⟩
    refine .cons (k' := ⟨t1, k.udp⟩) (.tcpSend k req (some req.length) req.length true t1 ?_)
      (.cons (.tcpClose ⟨t1, k.udp⟩ true true (TCPSocket.close true t1).2 (by simp [TCPSocket.close]))
        (.cons (.udpClose ⟨_, k.udp⟩ true true (UDPSocket.close true k.udp).2 (by simp [UDPSocket.close])) (.nil _)))
    simp [TCPSocket.send, ho, hp, t1]

/-- C122, as far as it holds: if `close` throws because the request could not be sent, nothing has changed; if the control
socket was connected, `close` can succeed when it is called again. -/
theorem c122_retry_partial {k k' : Sockets} {w w' : World} {e : Exn} {as : List NetAct}
    (h : NetStep dns k w .close (.throw e) as k' w') (closes : ∀ s, .closed s false ∉ calls as) :
    w'.s = w.s ∧ SameRoute k k' ∧ (k.tcp.isOpen = true → k.tcp.peer ≠ none →
      ∃ w1 as' k'' w'', w1.s = w'.s ∧ NetStep dns k' w1 .close (.ok ()) as' k'' w'') := by
  have key : w'.s = w.s ∧ SameRoute k k' := by
    have hc := close_cases w
    have run : Session.close w = (.throw e, w') := h.run
    rw [run] at hc
    have ht := h.trace
    clear run
    generalize hx : ((Res.throw e, w') : Res Unit × World) = q at hc
    cases hc with
    | sendFails =>
      cases hx
      have hm := (List.append_cancel_left ht).symm
      exact ⟨rfl, h.happen.route (plain_of_calls (by rw [hm]; intro ev hev; simp at hev; rw [hev]; trivial))⟩
    | tcpFails =>
      cases hx
      have hm : calls as = _ := (List.append_cancel_left ht).symm
      exact absurd (by rw [hm]; simp) (closes .tcp)
    | ioFails =>
      cases hx
      have hm : calls as = _ := (List.append_cancel_left ht).symm
      exact absurd (by rw [hm]; simp) (closes .io)
    | closed => cases hx
  exact ⟨key.1, key.2, fun ho hp => (c122_connected_partial k' w'.s).2 ⟨key.2.tcpOpen.trans ho, by rw [key.2.peer]; exact hp⟩⟩

/-- C122: the way out after the control socket failed to close: an `open` to a device that accepts the connection. It throws,
because the I/O socket is still open, but afterwards `close` can succeed. -/
theorem c122_recovers_partial {k k' k'' : Sockets} {w w' w'' : World} {r r' : Res Unit} {as as' : List NetAct}
    {host port ioPort : String} (h : NetStep dns k w .close r as k' w') (fails : .closed .tcp false ∈ calls as)
    (ioOpen : k.udp.isOpen = true) (again : NetStep dns k' w' (.open host port ioPort) r' as' k'' w'')
    (accepts : .opened .tcp host port true ∈ calls as') :
    r' = .throw systemError ∧ w''.s.sessionId = w.s.sessionId ∧
      ∃ w1 as'' k3 w3, w1.s = w''.s ∧ NetStep dns k'' w1 .close (.ok ()) as'' k3 w3 ∧ w3.s.sessionId = 0 := by
  obtain ⟨_, hs, _, _, ho⟩ := h.close_fails fails
  obtain ⟨h1, h2, h3, ⟨ep, _, h4⟩, _⟩ := c110_violated again ((ho rfl).trans ioOpen) accepts
  refine ⟨h1, by rw [h2, hs], ?_⟩
  obtain ⟨w1, as'', k3, w3, e, step⟩ := (c122_connected_partial (dns := dns) k'' w''.s).2 ⟨h3, by rw [h4]; simp⟩
  exact ⟨w1, as'', k3, w3, e, step, (c76_sets w1 w3).2 step.run⟩

/-- The answers in a session that is registered, and whose `close` then fails at the control or at the I/O socket. -/
def closeFailsAt (s : Sock) (registered : Bytes) (n : Nat) : Answer :=
  if n = 3 then ⟨false, registered, 0⟩ else ⟨n = (match s with | .tcp => 5 | .io => 6), [], 0⟩

/-- C122: this happens on a network where everything else works: a session on new sockets is opened, then `close` fails at
either socket. The log says nevertheless that the session was closed (C97). -/
theorem c122_violated_occurs {k : Sockets} (fresh : Sockets.Fresh k) (s : Session) (unregistered : s.sessionId = 0)
    (host port ioPort : String) (known : dns host port ≠ [] ∧ dns host ioPort ≠ []) (registered : Bytes) (handle : UInt32)
    (registers : Registers 0 registered handle) (fits : registered.length ≤ 4096) (sock : Sock) :
    ∃ w w1 w2 k1 k2 as, w.s = s ∧ NetHistory dns k w [(.open host port ioPort, .ok ())] k1 w1 ∧ k1.udp.isOpen = true ∧
      NetStep dns k1 w1 .close (.throw systemError) as k2 w2 ∧ .closed sock false ∈ calls as ∧ w2.s.sessionId = handle ∧
      .closed ∈ logOf Op.close.runLogged w1 := by
  have d3 : delivered (closeFailsAt sock registered) 3 = registered := List.take_of_length_le fits
  have ne : registered ≠ [] := by
    rintro rfl
    obtain ⟨_, ⟨h, t, _, _, _, e⟩, _⟩ := registers
    have := congrArg List.length e
    simp [header] at this
    omega
  let w : World := ⟨s, closeFailsAt sock registered, 0, []⟩
  have ho := open_registers (w := w) (host := host) (port := port) (ioPort := ioPort) (handle := handle)
    ⟨by cases sock <;> rfl, by cases sock <;> rfl, by cases sock <;> rfl, by cases sock <;> rfl⟩
    (by show Registers s.sessionId (delivered (closeFailsAt sock registered) 3) handle; rw [unregistered, d3]; exact registers)
  generalize hw1 : ({ w.replied host port ioPort [] with
      s := { (w.replied host port ioPort []).s with sessionId := handle } } : World) = w1 at ho
  have he : w1.env = closeFailsAt sock registered := by rw [← hw1]; rfl
  have hk : w1.clock = 4 := by rw [← hw1]; rfl
  have hid : w1.s.sessionId = handle := by rw [← hw1]
  have ht : w1.trace = openEvents host port ioPort registered := by
    rw [← hw1]
    show [] ++ (openEvents host port ioPort (delivered (closeFailsAt sock registered) 3) ++ []) = _
    rw [d3]; simp
  have hclose : ∃ w2 evs l, Session.close w1 = (.throw systemError, w2) ∧ w2.trace = w1.trace ++ evs ∧ w2.s.sessionId = handle ∧
      CanAll dns ⟨true, true, true, true⟩ evs l ∧ .closed sock false ∈ evs ∧
      .sent .tcp (request 0x66 w1.s.sessionId []) true ∈ evs := by
    have hc := close_cases w1
    generalize Session.close w1 = r at hc
    cases sock with
    | tcp =>
      cases hc with
      | tcpFails => exact ⟨_, _, _, rfl, rfl, hid, .cons (.sends _ _ rfl) (.cons (.disconnectFails _ rfl) (.nil _)), by simp⟩
      | sendFails h => rw [he, hk] at h; cases h
      | ioFails _ h => rw [he, hk] at h; cases h
      | closed _ h => rw [he, hk] at h; cases h
    | io =>
      cases hc with
      | ioFails =>
        exact ⟨_, _, _, rfl, rfl, hid,
          .cons (.sends _ _ rfl) (.cons (.disconnects _) (.cons (.closeFails _ rfl) (.nil _))), by simp⟩
      | sendFails h => rw [he, hk] at h; cases h
      | tcpFails _ h => rw [he, hk] at h; cases h
      | closed _ _ h => rw [he, hk] at h; cases h
  obtain ⟨w2, evs, l, h1, h2, h3, h4, h5, h6⟩ := hclose
  obtain ⟨hl, hq⟩ := fresh.line
  have hcan : CanAll dns Line.down (openEvents host port ioPort registered) ⟨true, true, true, true⟩ :=
    .cons (.connects _ _ _ known.1) (.cons (.opens _ _ _ known.2 rfl) (.cons (.sends _ _ rfl)
      (.cons (.receives _ _ rfl ne fits) (.nil _))))
  rw [← hl] at hcan
  obtain ⟨as1, k1, a1, a2, a3, a4⟩ := hcan.happens hq
  have ioOpen : k1.udp.isOpen = true := congrArg Line.ioOpen a3
  rw [← a3] at h4
  obtain ⟨as, k2, b1, b2, _⟩ := h4.happens a4
  have hstep : NetStep dns k1 w1 .close (.throw systemError) as k2 w2 := ⟨h1, by rw [h2, b2], b1⟩
  refine ⟨w, w1, w2, k1, k2, as, rfl, .call ⟨ho, by rw [a2, ht]; rfl, a1⟩ (by rintro ⟨_, ⟨⟩⟩) (.nil _ _), ioOpen, hstep,
    by rw [b2]; exact h5, h3, ?_⟩
  exact (c97_closed_partial w1 evs (by rw [show Op.close.run w1 = _ from h1]; exact h2)).1.2 h6

/-- A session that cannot be closed any more: `close` fails at the control socket; after that `close` and `open` throw. -/
example (s : Session) (h : s.sessionId = 0) : ∃ w w1 w2 k1 k2 as, w.s = s ∧
    NetHistory exampleDns exampleSockets w [(.open "device" "44818" "2222", .ok ())] k1 w1 ∧
    NetStep exampleDns k1 w1 .close (.throw systemError) as k2 w2 ∧ w2.s.sessionId = 7 ∧
    (∀ r as' k3 w3, NetStep exampleDns k2 w2 .close r as' k3 w3 → r = .throw systemError) ∧
    (∀ host port ioPort r as' k3 w3, NetStep exampleDns k2 w2 (.open host port ioPort) r as' k3 w3 → r = .throw systemError) := by
  obtain ⟨w, w1, w2, k1, k2, as, h1, h2, h3, h4, h5, h6, _⟩ := c122_violated_occurs (dns := exampleDns) (k := exampleSockets)
    ⟨rfl, _, rfl⟩ s h "device" "44818" "2222" (by decide) exampleRegistration 7 exampleRegistration_registers (by decide) .tcp
  refine ⟨w, w1, w2, k1, k2, as, h1, h2, h4, h6, fun r as' k3 w3 hc => ?_, fun host port ioPort r as' k3 w3 hc => ?_⟩
  · exact (c122_violated h4 h5 (.call hc (fun _ => rfl) (.nil _ _)) (by simp)).2.2.2.2 _ List.mem_cons_self rfl
  · have id : w1.s.sessionId ≠ 0 := by
      rw [← (h4.close_fails h5).2.1, h6]; decide
    exact (c122_violated_reopen h4 h5 id h3 hc).2 rfl

/-- A `close` whose request cannot be sent, and one that can (C122). -/
example (s : Session) : ∃ w as k' w', w.s = s ∧ NetStep exampleDns
    { exampleSockets with tcp := { exampleSockets.tcp with isOpen := true, peer := some ⟨1, 44818⟩ } } w .close (.ok ()) as k' w' :=
  (c122_connected_partial _ s).2 ⟨rfl, by simp⟩

end Eip
