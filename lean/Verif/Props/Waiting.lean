import Verif.Lemmas.Waiting
/-
C116: calls that do not come back when the device says nothing.
-/
namespace Eip
open Spec

variable {dns : String → String → List Endpoint}

/-- C116 is violated by the commands: over a connected control socket on which nothing waits, each command with proper
arguments comes to a point where it waits for the device, and as long as nothing arrives it cannot end without a socket
call failing: no time limit ends it. -/
theorem c116_violated {k : Sockets} (isOpen : k.tcp.isOpen = true) (connected : k.tcp.peer ≠ none) (empty : k.tcp.inbox = [])
    {op : Op} (cmd : IsCommand op) {s : Session} (proper : Proper s op) :
    (∃ env bs k', NetWaits dns k ⟨s, env, 0, []⟩ op [.call (.sent .tcp bs true)] k' .tcp) ∧
    ∀ w r as k' w', w.s = s → NetStep dns k w op r as k' w' → NothingArrives as → ∃ ev ∈ calls as, succeeded ev = false := by
  have waits := tcp_waits isOpen connected empty
  constructor
  · rcases command_shape cmd ⟨s, fun _ => ⟨false, [], 0⟩, 0, []⟩ with ⟨_, h⟩ | ⟨_, _, h⟩ | ⟨bs, b, ok, h, _⟩
    · exact absurd proper h
    · cases h
    · obtain ⟨ep, hp⟩ := Option.ne_none_iff_exists'.1 connected
      have hs : Happens dns k (.call (.sent .tcp bs true))
          { k with tcp := { k.tcp with sent := k.tcp.sent ++ [(ep, bs.take (min bs.length bs.length))] } } :=
        .tcpSend k bs (some bs.length) (min bs.length bs.length) true _ (by
          simp [TCPSocket.send, isOpen, hp])
      exact ⟨_, bs, _, ⟨b, ok, [], by rw [h]; rfl⟩, .cons hs (.nil _), waits_send waits hs⟩
  · rintro w r as k' w' rfl step silent
    have ht : (op.run w).2.trace = w.trace ++ calls as := by rw [step.run]; exact step.trace
    rcases command_shape cmd w with ⟨_, h⟩ | ⟨bs, h, _⟩ | ⟨bs, b, ok, h, _⟩
    · exact absurd proper h
    · rw [h] at ht
      rw [← List.append_cancel_left ht]
      exact ⟨_, List.mem_singleton.2 rfl, rfl⟩
    · rw [h] at ht
      have hc := List.append_cancel_left ht
      cases ok with
      | false => rw [← hc]; exact ⟨.received .tcp b false, by simp, rfl⟩
      | true =>
        exfalso
        have hh := step.happen
        rw [calls_of_silent silent, ← hc] at hh
        cases hh with
        | cons h1 t =>
          cases t with
          | cons h2 t => exact waits_no_bytes (waits_send waits h1) h2

/-- The same for `open`, whatever the sockets were like: once connected it waits for the device, and as long as nothing
arrives it cannot end without a socket call failing. -/
theorem c116_violated_open {k : Sockets} (s : Session) (host port ioPort : String) :
    (dns host port ≠ [] → dns host ioPort ≠ [] → k.udp.isOpen = false → ∃ env k',
      NetWaits dns k ⟨s, env, 0, []⟩ (.open host port ioPort) ([.opened .tcp host port true, .opened .io host ioPort true,
        .sent .tcp registration true].map .call) k' .tcp) ∧
    ∀ w r as k' w', NetStep dns k w (.open host port ioPort) r as k' w' → NothingArrives as →
      ∃ ev ∈ calls as, succeeded ev = false := by
  constructor
  · intro known known' closed
    obtain ⟨ep, eps, he⟩ := List.exists_cons_of_ne_nil known
    obtain ⟨ep', eps', he'⟩ := List.exists_cons_of_ne_nil known'
    have h1 : Happens dns k (.call (.opened .tcp host port true))
        { k with tcp := { k.tcp with isOpen := true, peer := some ep, inbox := [] } } :=
      .tcpOpen k host port (openWorks (dns host port)) (.inl rfl) true _ (by
        simp [TCPSocket.open, openWorks, he, TCPSocket.connect])
    have h2 : Happens dns { k with tcp := { k.tcp with isOpen := true, peer := some ep, inbox := [] } }
        (.call (.opened .io host ioPort true))
        ⟨{ k.tcp with isOpen := true, peer := some ep, inbox := [] },
          { k.udp with remoteEndpoint := ep', isOpen := true, bound := true }⟩ :=
      .udpOpen _ host ioPort (openWorks (dns host ioPort)) (.inl rfl) true _ (by
        simp [UDPSocket.open, openWorks, he', closed])
    have h3 : Happens dns ⟨{ k.tcp with isOpen := true, peer := some ep, inbox := [] },
          { k.udp with remoteEndpoint := ep', isOpen := true, bound := true }⟩ (.call (.sent .tcp registration true))
        ⟨{ k.tcp with 
             isOpen := true, peer := some ep, inbox := []
             sent := k.tcp.sent ++ [(ep, registration.take (min registration.length registration.length))] },
          { k.udp with remoteEndpoint := ep', isOpen := true, bound := true }⟩ :=
      .tcpSend _ registration (some registration.length) (min registration.length registration.length) true _ rfl
    obtain ⟨evs, ht, hs⟩ := open_shape host port ioPort ⟨s, fun _ => ⟨false, [], 0⟩, 0, []⟩
    rcases hs with ⟨_, ev, hev, hf⟩ | ⟨b, ok, rest, rfl, _⟩
    · exfalso
      obtain ⟨t, hst⟩ := Strategic.open host port ioPort s
      obtain ⟨pre, post, rfl⟩ := List.append_of_mem hev
      obtain ⟨call, hc⟩ := exec_events t (fun _ => ⟨false, [], 0⟩) 0 [] pre ev post (by rw [← hst]; exact ht)
      rw [hc] at hf
      cases call <;> cases hf
    · exact ⟨_, _, ⟨b, ok, rest, by rw [calls_map]; exact ht⟩, .cons h1 (.cons h2 (.cons h3 (.nil _))),
        tcp_waits rfl (by simp) rfl⟩
  · intro w r as k' w' step silent
    have ht : (Session.open host port ioPort w).2.trace = w.trace ++ calls as := by
      have := step.run
      simp only [Op.run] at this
      rw [this]
      exact step.trace
    obtain ⟨evs, he, hs⟩ := open_shape host port ioPort w
    rw [he] at ht
    have hc := List.append_cancel_left ht
    subst hc
    rcases hs with ⟨_, h⟩ | ⟨b, ok, rest, he, _⟩
    · exact h
    · cases ok with
      | false => exact ⟨.received .tcp b false, by rw [he]; simp, rfl⟩
      | true =>
        exfalso
        have hh := step.happen
        rw [calls_of_silent silent, he] at hh
        cases hh with
        | cons h1 t =>
          cases t with
          | cons h2 t =>
            cases t with
            | cons h3 t =>
              cases t with
              | cons h4 t =>
                refine waits_no_bytes (waits_send ?_ h3) h4
                cases h1 with
                | tcpOpen _ _ env _ _ t e =>
                  obtain ⟨ep, _, _, hp, ho, hi⟩ := TCPSocket.open_peer e
                  cases h2 with
                  | udpOpen => exact tcp_waits ho (by simp [hp]) hi

/-- The same for `receiveIOPacket`: it waits at an open I/O socket on which nothing waits, and as long as nothing arrives it
does not come back at all. -/
theorem c116_violated_io {k : Sockets} (isOpen : k.udp.isOpen = true) (empty : k.udp.inbox = []) :
    (∀ w, NetWaits dns k w .receiveIOPacket [] k .io) ∧
    ∀ w r as k' w', NetStep dns k w .receiveIOPacket r as k' w' → ¬ NothingArrives as := by
  have waits : k.Waits .io := by simp [Sockets.Waits, UDPSocket.receive, isOpen, empty]
  constructor
  · intro w
    obtain ⟨ok, s, h, _⟩ := receiveIO_world w
    exact ⟨⟨_, ok, [], by rw [h]; simp [World.logS]; rfl⟩, .nil _, waits⟩
  · intro w r as k' w' step silent
    have ht : (Op.run .receiveIOPacket w).2.trace = w.trace ++ calls as := by rw [step.run]; exact step.trace
    obtain ⟨ok, s, h, _⟩ := receiveIO_world w
    rw [h] at ht
    have hc : [_] = calls as := List.append_cancel_left ht
    have hh := step.happen
    rw [calls_of_silent silent, ← hc] at hh
    cases hh with
    | cons h1 t =>
      cases h1 with
      | udpReceive b ok u e =>
        have h : UDPSocket.receive 4096 k.udp = _ := waits
        rw [h] at e
        cases ok <;> cases congrArg Prod.fst e

/-- C116 as far as it holds: `close`, `sendIOPacket`, `getConnection` and the destructor never wait for the device, and the
calls come back from any state of the sockets without anything arriving. -/
theorem c116_no_wait_partial {op : Op} (h : op = .close ∨ (∃ p, op = .sendIOPacket p) ∨ ∃ n, op = .getConnection n) :
    (∀ k w as k' sock, ¬ NetWaits dns k w op as k' sock) ∧
    (∀ k s, ∃ w r as k' w', w.s = s ∧ NetStep dns k w op r as k' w' ∧ NothingArrives as) ∧
    (∀ w, ∃ evs, (Session.destroy w).2.trace = w.trace ++ evs ∧ ∀ ev ∈ evs, isReceive ev = false) := by
  have shape : ∀ w, ∃ evs, (op.run w).2.trace = w.trace ++ evs ∧ ∀ ev ∈ evs, isReceive ev = false := by
    intro w
    rcases h with rfl | ⟨p, rfl⟩ | ⟨n, rfl⟩
    · exact close_shape w
    · rcases sendIO_world p w with h | ⟨bs, ok, _, h⟩
      · exact ⟨[], by rw [h]; simp, by simp⟩
      · exact ⟨_, by rw [h]; rfl, by simp [isReceive]⟩
    · exact ⟨[], by rw [getConnection_world]; simp, by simp⟩
  refine ⟨?_, ?_, ?_⟩
  · rintro k w as k' sock ⟨⟨b, ok, rest, hn⟩, _, _⟩
    obtain ⟨evs, h1, h2⟩ := shape w
    rw [h1, List.append_assoc] at hn
    have := h2 (.received sock b ok) (by rw [List.append_cancel_left hn]; simp)
    cases this
  · intro k s
    have fin : ∀ (w : World) (evs : List Ev) (k' : Sockets), w.s = s → (op.run w).2.trace = w.trace ++ evs →
        AllHappen dns k (evs.map .call) k' → ∃ w r as k' w', w.s = s ∧ NetStep dns k w op r as k' w' ∧ NothingArrives as :=
      fun w evs k' hs ht hh => ⟨w, (op.run w).1, evs.map .call, k', (op.run w).2, hs,
        ⟨rfl, by rw [calls_map]; exact ht, hh⟩, silent_map evs⟩
    rcases h with rfl | ⟨p, rfl⟩ | ⟨n, rfl⟩
    · have hc := close_cases ⟨s, fun _ => ⟨true, [], 0⟩, 0, []⟩
      have hr : Op.run .close = Session.close := rfl
      generalize hx : Session.close ⟨s, fun _ => ⟨true, [], 0⟩, 0, []⟩ = r at hc
      cases hc with
      | sendFails =>
        refine fin ⟨s, fun _ => ⟨true, [], 0⟩, 0, []⟩ _ _ rfl (by rw [hr, hx]; rfl)
          (.cons (.tcpSend k _ none 0 false k.tcp ?_) (.nil _))
        unfold TCPSocket.send
        split
        · next hh => cases hh
        · rfl
      | tcpFails h => cases h
      | ioFails h => cases h
      | closed h => cases h
    · rcases sendIO_world p ⟨s, fun _ => ⟨true, [], 0⟩, 0, []⟩ with h | ⟨bs, ok, hs, h⟩
      · exact fin _ [] k rfl (by rw [h]; simp) (.nil _)
      · have hok : ok = false := by
          obtain ⟨t, hst⟩ := Strategic.op (.sendIOPacket p) s
          obtain ⟨call, hc⟩ := exec_events t (fun _ => ⟨true, [], 0⟩) 0 [] [] (.sent .io bs ok) [] (by rw [← hst, h]; rfl)
          cases call with
          | send => simp only [SockReq.event, Ev.sent.injEq] at hc; exact hc.2.2
          | «open» => cases hc
          | close => cases hc
          | receive => cases hc
        subst hok
        refine fin ⟨s, fun _ => ⟨true, [], 0⟩, 0, []⟩ _ _ rfl (by rw [h]; rfl)
          (.cons (.udpSend k bs false 0 false k.udp ?_) (.nil _))
        simp [UDPSocket.send]
    · exact fin ⟨s, fun _ => ⟨true, [], 0⟩, 0, []⟩ [] k rfl (by rw [getConnection_world]; simp) (.nil _)
  · intro w
    rw [destroy_eq]
    split
    · obtain ⟨evs, h1, h2⟩ := close_shape w
      refine ⟨evs, ?_, h2⟩
      rw [← h1]
      rcases Session.close w with ⟨(_ | _ | _), _⟩ <;> rfl
    · exact ⟨[], by simp, by simp⟩

/-- C116 as far as it holds: a call waits at most once. When one to 4096 bytes arrive at the control socket it waits at, or
a datagram at a bound I/O socket, then it can receive them and come back; it then closes at most the sockets, and needs
nothing more from the network. -/
theorem c116_once_partial {k k' : Sockets} {w : World} {op : Op} {as : List NetAct} {sock : Sock}
    (waits : NetWaits dns k w op as k' sock) (bound : sock = .io → k'.udp.bound = true) {b : Bytes}
    (nonempty : sock = .tcp → b ≠ []) (fits : b.length ≤ 4096) (sender : Endpoint) :
    (∀ ev ∈ calls as, isReceive ev = false) ∧
    ∃ env r more k'' w', (∀ i < (calls as).length, env (w.clock + i) = w.env (w.clock + i)) ∧
      NetStep dns k { w with env := env } op r
        (as ++ (if sock = .tcp then .bytes b else .datagram sender b) :: .call (.received sock b true) :: more) k'' w' ∧
      ∀ a ∈ more, ∃ s, a = .call (.closed s true) := by
  obtain ⟨s, env0, n, trace⟩ := w
  obtain ⟨⟨b0, ok0, rest0, hn⟩, hh, hw⟩ := waits
  let env : Nat → Answer := fun i => if i < n + (calls as).length then env0 i else ⟨false, b, 0⟩
  have hsame : ∀ i < (calls as).length, env (n + i) = env0 (n + i) := by
    intro i hi
    exact if_pos (by omega)
  have hworks : ∀ i ≥ (calls as).length, env (n + i) = ⟨false, b, 0⟩ := by
    intro i hi
    exact if_neg (by omega)
  obtain ⟨h1, rest, h2, h3⟩ := op_resume op s env0 env n trace (calls as) sock b0 ok0 rest0 hn hsame
    (fun i hi => by rw [hworks i hi])
  have hd : delivered env (n + (calls as).length) = b := by
    rw [delivered, hworks _ (Nat.le_refl _)]
    exact List.take_of_length_le fits
  rw [hd] at h2
  refine ⟨h1, ?_⟩
  have arrives : ∃ k1 k2, Happens dns k' (if sock = .tcp then .bytes b else .datagram sender b) k1 ∧
      Happens dns k1 (.call (.received sock b true)) k2 := by
    cases sock with
    | tcp =>
      obtain ⟨o, p, e⟩ := waits_tcp hw
      obtain ⟨ep, hp⟩ := Option.ne_none_iff_exists'.1 p
      refine ⟨_, { k' with tcp := { k'.tcp with inbox := [] } }, .bytes k' b,
        .tcpReceive { k' with tcp := k'.tcp.arrive b } (some 4096) b true _ ?_⟩
      have hb := nonempty rfl
      have ha : k'.tcp.arrive b = { k'.tcp with inbox := b } := by simp [TCPSocket.arrive, o, hp, e]
      rw [ha]
      simp only [TCPSocket.receive, o, hp, hb, if_false, if_true]
      rw [show min 4096 (max 1 4096) = 4096 from rfl, List.take_of_length_le fits, List.drop_eq_nil_of_le fits]
    | io =>
      obtain ⟨o, e⟩ := waits_io hw
      refine ⟨_, { k' with udp := { k'.udp with inbox := [] } }, .datagram k' sender b,
        .udpReceive { k' with udp := k'.udp.arrive sender b } b true _ ?_⟩
      have ha : k'.udp.arrive sender b = { k'.udp with inbox := [(sender, b)] } := by
        simp [UDPSocket.arrive, o, bound rfl, e]
      rw [ha]
      simp only [UDPSocket.receive, o]
      simp [List.take_of_length_le fits]
  obtain ⟨k1, k2, a1, a2⟩ := arrives
  obtain ⟨k3, a3⟩ := closes_happen (dns := dns) k2 rest h3
  refine ⟨env, (op.run ⟨s, env, n, trace⟩).1, rest.map .call, k3, (op.run ⟨s, env, n, trace⟩).2, hsame,
    ⟨rfl, ?_, hh.append (.cons a1 (.cons a2 a3))⟩, ?_⟩
  · rw [h2, calls_append]
    have : calls ((if sock = .tcp then NetAct.bytes b else .datagram sender b) :: .call (.received sock b true) :: rest.map .call) =
        .received sock b true :: rest := by
      split
      · rw [calls_bytes, calls_call, calls_map]
      · rw [calls_datagram, calls_call, calls_map]
    rw [this, List.append_assoc]
  · intro a ha
    obtain ⟨ev, hev, rfl⟩ := List.mem_map.1 ha
    obtain ⟨x, rfl⟩ := h3 ev hev
    exact ⟨x, rfl⟩

/-- A connected session that sets an attribute of a device that has gone silent waits. -/
example : ∃ env bs k', NetWaits (fun _ _ => [⟨1, 2⟩])
    ⟨⟨true, some ⟨1, 2⟩, [], []⟩, UDPSocket.new ⟨0, 2222⟩⟩ ⟨{ Session.new 1 2 3 4 [] with sessionId := 5 }, env, 0, []⟩
    (.setAttribute 1 1 1 none) [.call (.sent .tcp bs true)] k' .tcp :=
  (c116_violated (op := .setAttribute 1 1 1 none) (s := { Session.new 1 2 3 4 [] with sessionId := 5 }) rfl (by simp) rfl
    trivial ⟨[], rfl⟩).1

end Eip
