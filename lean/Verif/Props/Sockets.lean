import Verif.Spec.Sockets
import Verif.Lemmas.Streams

/-
C82, C83, C84, C101: the real sockets.
-/
namespace Eip
open Spec

/-! ### C82 -/

theorem UDPSocket.receiveAll_cons (n : Nat) (ns : List Nat) (s : UDPSocket) (d : Endpoint × Bytes)
    (rest : List (Endpoint × Bytes)) (ho : s.isOpen = true) (hi : s.inbox = d :: rest) :
    UDPSocket.receiveAll (n :: ns) s =
      (match UDPSocket.receiveAll ns { s with inbox := rest } with
        | (.ok bs, t) => (.ok (d.2.take n :: bs), t)
        | (.throw e, t) => (.throw e, t)
        | (.ub u, t) => (.ub u, t)) := by
  have h : UDPSocket.receive n s = (.ok (some (d.2.take n)), { s with inbox := rest }) := by
    simp [UDPSocket.receive, ho, hi]
  rw [UDPSocket.receiveAll, Prog.bind_ok h]
  show Prog.andThen (UDPSocket.receiveAll ns) _ _ = _
  unfold Prog.andThen
  rcases UDPSocket.receiveAll ns { s with inbox := rest } with ⟨_ | _ | _, _⟩ <;> rfl


/-- C82 does not hold: what the receives return does not depend on who sent the datagrams. Replace the senders of all
datagrams by any others, and every receive returns the same. -/
theorem c82_violated (ns : List Nat) (s : UDPSocket) (f : Endpoint → Endpoint) :
    (UDPSocket.receiveAll ns (fromOthers s f)).1 = (UDPSocket.receiveAll ns s).1 ∧
      (UDPSocket.receiveAll ns (fromOthers s f)).2 = fromOthers (UDPSocket.receiveAll ns s).2 f := by
  induction ns generalizing s with
  | nil => exact ⟨rfl, rfl⟩
  | cons n ns ih =>
    obtain ⟨o, b, le, re, sent, inbox⟩ := s
    cases o with
    | false => exact ⟨rfl, rfl⟩
    | true =>
      cases inbox with
      | nil => exact ⟨rfl, rfl⟩
      | cons d rest =>
        have h := ih ⟨true, b, le, re, sent, rest⟩
        rcases hr : UDPSocket.receiveAll ns ⟨true, b, le, re, sent, rest⟩ with ⟨r, s'⟩
        rcases hr' : UDPSocket.receiveAll ns (fromOthers ⟨true, b, le, re, sent, rest⟩ f) with ⟨r', s''⟩
        rw [hr, hr'] at h
        have e1 := UDPSocket.receiveAll_cons n ns ⟨true, b, le, re, sent, d :: rest⟩ d rest rfl rfl
        have e2 := UDPSocket.receiveAll_cons n ns (fromOthers ⟨true, b, le, re, sent, d :: rest⟩ f) (f d.1, d.2)
          (rest.map (fun d => (f d.1, d.2))) rfl rfl
        have e3 : UDPSocket.receiveAll ns { fromOthers ⟨true, b, le, re, sent, d :: rest⟩ f with
            inbox := rest.map (fun d => (f d.1, d.2)) } = (r', s'') := hr'
        rw [e1, e2, hr, e3]
        obtain ⟨h1, h2⟩ := h
        simp only at h1 h2
        subst h1 h2
        cases r' <;> exact ⟨rfl, rfl⟩

/-- C82 in particular: on an open socket, a datagram from any sender is returned to the caller. -/
theorem c82_violated_stranger (s : UDPSocket) (n : Nat) (stranger : Endpoint) (bytes : Bytes)
    (rest : List (Endpoint × Bytes)) (opened : s.isOpen = true) (_other : stranger ≠ s.remoteEndpoint)
    (first : s.inbox = (stranger, bytes) :: rest) :
    UDPSocket.receive n s = (.ok (some (bytes.take n)), { s with inbox := rest }) := by
  simp [UDPSocket.receive, opened, first]

/-- C82, as far as it holds: what is returned is the beginning of a datagram that has arrived, each datagram at most once,
in the order of arrival. So if only the device sends to this port, only its datagrams are returned. Missing: any check of
the sender. -/
theorem c82_arrived_partial (ns : List Nat) (s : UDPSocket) (opened : s.isOpen = true) :
    ∃ s', UDPSocket.receiveAll ns s = (.ok ((s.inbox.zip ns).map (fun x => x.1.2.take x.2)), s') ∧
      s'.inbox = s.inbox.drop ns.length := by
  induction ns generalizing s with
  | nil => exact ⟨s, by simp [UDPSocket.receiveAll]; rfl, rfl⟩
  | cons n ns ih =>
    obtain ⟨o, b, le, re, sent, inbox⟩ := s
    cases o with
    | false => exact (nomatch opened)
    | true =>
      cases inbox with
      | nil => exact ⟨_, rfl, rfl⟩
      | cons d rest =>
        obtain ⟨s', h, hs⟩ := ih ⟨true, b, le, re, sent, rest⟩ rfl
        have e1 := UDPSocket.receiveAll_cons n ns ⟨true, b, le, re, sent, d :: rest⟩ d rest rfl rfl
        exact ⟨s', by rw [e1, h]; rfl, by simpa using hs⟩

/-- Two datagrams of a stranger and one of the device. -/
example : (UDPSocket.receiveAll [2, 4, 4, 4] ⟨true, true, ⟨0, 2222⟩, ⟨10, 2222⟩, [],
    [(⟨66, 1⟩, [1, 2, 3]), (⟨10, 2222⟩, [4]), (⟨66, 1⟩, [5, 6])]⟩).1 = .ok [[1, 2], [4], [5, 6]] := by decide

/-! ### C83 -/

theorem TCPSocket.connect_ok (env : OpenEnv) (hc : env.creates = true) (eps : List Endpoint) (s : TCPSocket)
    (h : ∃ ep ∈ eps, env.connects ep = true) :
    ∃ ep ∈ eps, env.connects ep = true ∧
      TCPSocket.connect env eps s = (.ok (), { s with isOpen := true, peer := some ep, inbox := [] }) := by
  induction eps generalizing s with
  | nil => obtain ⟨_, h, _⟩ := h; cases h
  | cons e eps ih =>
    by_cases he : env.connects e = true
    · exact ⟨e, List.mem_cons_self, he, by simp [TCPSocket.connect, hc, he]⟩
    · obtain ⟨ep, hm, hep⟩ := h
      have hm' : ep ∈ eps := by
        cases hm with
        | head => exact absurd hep he
        | tail _ h => exact h
      obtain ⟨x, hx, hx1, hx2⟩ := ih { s with isOpen := true, peer := none, inbox := [] } ⟨ep, hm', hep⟩
      exact ⟨x, List.mem_cons_of_mem _ hx, hx1, by simp [TCPSocket.connect, hc, he, hx2]⟩

/-- C83 for TCP: after any calls with any outcomes, `open` succeeds as soon as a socket can be created and some endpoint
accepts the connection, and the socket is then connected to such an endpoint. Missing from C83: UDP. -/
theorem c83_tcp_partial (calls : List SocketCall) (s : TCPSocket) (env : OpenEnv) (works : tcpWorks env) :
    ∃ ep s', TCPSocket.open env (tcpAfter calls s) = (.ok (), s') ∧ ep ∈ env.resolved ∧ env.connects ep = true ∧
      s'.isOpen = true ∧ s'.peer = some ep := by
  obtain ⟨hc, hx⟩ := works
  obtain ⟨ep, hm, hep, he⟩ := TCPSocket.connect_ok env hc env.resolved (tcpAfter calls s) hx
  refine ⟨ep, { tcpAfter calls s with isOpen := true, peer := some ep, inbox := [] }, ?_, hm, hep, rfl, rfl⟩
  rw [← he]
  unfold TCPSocket.open
  split
  · next h => rw [h] at hm; cases hm
  · next h => rfl

theorem UDPSocket.open_stays (env : OpenEnv) (s : UDPSocket) (h : s.isOpen = true) :
    (UDPSocket.open env s).1 = .throw systemError ∧ (UDPSocket.open env s).2.isOpen = true := by
  unfold UDPSocket.open
  split
  · exact ⟨rfl, h⟩
  · simp [h]

theorem udpAfter_open (calls : List SocketCall) (s : UDPSocket) (h : s.isOpen = true) (nc : ∀ b, SocketCall.close b ∉ calls) :
    (udpAfter calls s).isOpen = true := by
  induction calls generalizing s with
  | nil => exact h
  | cons c cs ih =>
    have nc' : ∀ b, SocketCall.close b ∉ cs := fun b hc => nc b (List.mem_cons_of_mem _ hc)
    cases c with
    | «open» env => exact ih _ (UDPSocket.open_stays env s h).2 nc'
    | close b => exact absurd List.mem_cons_self (nc b)
    | send b a =>
      refine ih _ ?_ nc'
      unfold UDPSocket.send
      split <;> exact h
    | arrive e b =>
      refine ih _ ?_ nc'
      unfold UDPSocket.arrive
      split <;> exact h

/-- C83 does not hold for UDP: if the local port is in use, `open` throws, and from then on every `open` throws, whatever the
system answers and whatever else is done, until the socket is closed. -/
theorem c83_violated (s : UDPSocket) (closed : s.isOpen = false) (env : OpenEnv) (resolves : env.resolved ≠ [])
    (creates : env.creates = true) (inUse : env.portFree = false) :
    (UDPSocket.open env s).1 = .throw systemError ∧
    ∀ (calls : List SocketCall) (later : OpenEnv), (∀ works, SocketCall.close works ∉ calls) →
      (UDPSocket.open later (udpAfter calls (UDPSocket.open env s).2)).1 = .throw systemError := by
  have h1 : (UDPSocket.open env s).1 = .throw systemError ∧ (UDPSocket.open env s).2.isOpen = true := by
    unfold UDPSocket.open
    split
    · next h => exact absurd h resolves
    · simp [closed, creates, inUse]
  exact ⟨h1.1, fun calls later nc => (UDPSocket.open_stays later _ (udpAfter_open calls _ h1.2 nc)).1⟩

theorem UDPSocket.open_ok (env : OpenEnv) (works : udpWorks env) (s : UDPSocket) (closed : s.isOpen = false) :
    ∃ s', UDPSocket.open env s = (.ok (), s') ∧ s'.isOpen = true ∧ s'.bound = true ∧
      env.resolved.head? = some s'.remoteEndpoint := by
  obtain ⟨h1, h2, h3⟩ := works
  unfold UDPSocket.open
  split
  · next h => exact absurd h h1
  · next h => simp [closed, h2, h3, h]

/-- C83 for UDP, as far as it holds: a failure to resolve the name or to create the socket does not stand in the way of a
later `open`; after `close` nothing does. Missing: a local port in use, after which `open` fails until `close`. -/
theorem c83_udp_partial (s : UDPSocket) (later : OpenEnv) (works : udpWorks later) :
    (∀ env, s.isOpen = false → env.resolved = [] ∨ env.creates = false →
      (UDPSocket.open env s).1 = .throw systemError ∧ ∃ s', UDPSocket.open later (UDPSocket.open env s).2 = (.ok (), s') ∧
        s'.isOpen = true ∧ s'.bound = true ∧ later.resolved.head? = some s'.remoteEndpoint) ∧
    (∀ calls works, ∃ s', UDPSocket.open later (UDPSocket.close works (udpAfter calls s)).2 = (.ok (), s') ∧
        s'.isOpen = true ∧ s'.bound = true ∧ later.resolved.head? = some s'.remoteEndpoint) := by
  refine ⟨fun env closed bad => ?_, fun calls _ => UDPSocket.open_ok later works _ rfl⟩
  have : (UDPSocket.open env s).1 = .throw systemError ∧ (UDPSocket.open env s).2.isOpen = false := by
    unfold UDPSocket.open
    split
    · exact ⟨rfl, closed⟩
    · next h =>
      have hc : env.creates = false := by
        rcases bad with b | b
        · rw [b] at h; cases h
        · exact b
      simp [closed, hc]
  exact ⟨this.1, UDPSocket.open_ok later works _ this.2⟩

/-- The hypotheses can be met, and the port being free later does not help. -/
example : (UDPSocket.open ⟨[⟨10, 2222⟩], true, true, fun _ => true⟩
    (UDPSocket.open ⟨[⟨10, 2222⟩], true, false, fun _ => true⟩ (UDPSocket.new ⟨0, 2222⟩)).2).1 = .throw systemError := by
  decide
example : udpWorks ⟨[⟨10, 2222⟩], true, true, fun _ => false⟩ := ⟨by decide, rfl, rfl⟩
example : tcpWorks ⟨[⟨9, 1⟩, ⟨10, 44818⟩], true, false, fun e => e.port == 44818⟩ :=
  ⟨rfl, ⟨10, 44818⟩, by decide, by decide⟩

/-! ### C84 -/

/-- C84 does not hold for UDP: opening a socket that is already open, for any name that resolves, throws, and everything sent
afterwards goes to the new endpoint. -/
theorem c84_violated (s : UDPSocket) (opened : s.isOpen = true) (env : OpenEnv) (ep : Endpoint) (more : List Endpoint)
    (resolves : env.resolved = ep :: more) :
    ∃ s', UDPSocket.open env s = (.throw systemError, s') ∧
      ∀ bytes, UDPSocket.send bytes true s' = (.ok bytes.length, { s' with bound := true, sent := s.sent ++ [(ep, bytes)] }) := by
  refine ⟨{ s with remoteEndpoint := ep }, ?_, fun bytes => ?_⟩
  · simp [UDPSocket.open, resolves, opened]
  · simp [UDPSocket.send, opened]

/-- C84 for UDP, as far as it holds: if the name cannot be resolved nothing changes. Missing: names that resolve. -/
theorem c84_udp_partial (s : UDPSocket) (env : OpenEnv) (unknown : env.resolved = []) :
    UDPSocket.open env s = (.throw systemError, s) := by
  simp [UDPSocket.open, unknown]

theorem TCPSocket.connect_throw (env : OpenEnv) (eps : List Endpoint) (s s' : TCPSocket) (e : Exn)
    (h : TCPSocket.connect env eps s = (.throw e, s')) : s' = s ∨ s'.peer = none := by
  induction eps generalizing s with
  | nil => exact .inl (congrArg Prod.snd h).symm
  | cons ep eps ih =>
    unfold TCPSocket.connect at h
    split at h
    · rcases ih _ h with h | h
      · exact .inr (by rw [h])
      · exact .inr h
    · split at h
      · cases congrArg Prod.fst h
      · rcases ih _ h with h | h
        · exact .inr (by rw [h])
        · exact .inr h

/-- C84 for TCP: after a failed `open` of a connected socket, whatever is sent successfully goes to the endpoint it went to
before. Missing from C84: UDP. -/
theorem c84_tcp_partial (s s' s'' : TCPSocket) (p : Endpoint) (connected : s.peer = some p) (env : OpenEnv) (e : Exn)
    (fails : TCPSocket.open env s = (.throw e, s')) (bytes : Bytes) (accepts : Option Nat) (n : Nat)
    (sends : TCPSocket.send bytes accepts s' = (.ok n, s'')) :
    s''.sent = s.sent ++ [(p, bytes.take n)] := by
  have hs : s' = s ∨ s'.peer = none := by
    unfold TCPSocket.open at fails
    split at fails
    · exact .inl (congrArg Prod.snd fails).symm
    · exact TCPSocket.connect_throw env _ s s' e fails
  unfold TCPSocket.send at sends
  split at sends
  · next k q h1 h2 =>
    rcases hs with hs | hs
    · subst hs
      rw [connected] at h2
      cases h2
      have e1 := congrArg Prod.fst sends
      have e2 := congrArg Prod.snd sends
      simp only [Res.ok.injEq] at e1 e2
      rw [← e2, ← e1]
    · rw [hs] at h2; cases h2
  · cases congrArg Prod.fst sends

/-- A socket that stays connected because the name of the second `open` does not resolve. -/
example : TCPSocket.open ⟨[], true, true, fun _ => true⟩ ⟨true, some ⟨10, 44818⟩, [], []⟩ =
    (.throw systemError, ⟨true, some ⟨10, 44818⟩, [], []⟩) ∧
    (TCPSocket.send [1, 2] (some 2) ⟨true, some ⟨10, 44818⟩, [], []⟩).2.sent = [(⟨10, 44818⟩, [1, 2])] := by decide

/-! ### C101 -/

theorem udpAfter_closed (calls : List SocketCall) (s : UDPSocket) (h : s.isOpen = false)
    (no : ∀ c ∈ calls, c.isOpening = false) :
    (udpAfter calls s).isOpen = false ∧ (udpAfter calls s).sent = s.sent := by
  induction calls generalizing s with
  | nil => exact ⟨h, rfl⟩
  | cons c cs ih =>
    have no' : ∀ c ∈ cs, c.isOpening = false := fun c hc => no c (List.mem_cons_of_mem _ hc)
    cases c with
    | «open» env => exact absurd (no _ List.mem_cons_self) (by simp [SocketCall.isOpening])
    | close => exact ih _ rfl no'
    | send b a =>
      have e : (UDPSocket.send b a s).2 = s := by simp [UDPSocket.send, h]
      simpa only [udpAfter, e] using ih s h no'
    | arrive x b =>
      have e : UDPSocket.arrive x b s = s := by simp [UDPSocket.arrive, h]
      simpa only [udpAfter, e] using ih s h no'

/-- C101 for UDP. After `close`, and until the socket is opened again, every `send` and every `receive` throws, and nothing
is sent. -/
theorem c101_udp (s : UDPSocket) (works : Bool) (calls : List SocketCall) (no : ∀ c ∈ calls, c.isOpening = false) (bytes : Bytes)
    (accepts : Bool) (n : Nat) :
    (UDPSocket.send bytes accepts (udpAfter calls (UDPSocket.close works s).2)).1 = .throw systemError ∧
    (UDPSocket.receive n (udpAfter calls (UDPSocket.close works s).2)).1 = .throw systemError ∧
    (udpAfter calls (UDPSocket.close works s).2).sent = s.sent := by
  obtain ⟨h1, h2⟩ := udpAfter_closed calls (UDPSocket.close works s).2 rfl no
  exact ⟨by simp [UDPSocket.send, h1], by simp [UDPSocket.receive, h1], h2⟩

theorem tcpAfter_closed (calls : List SocketCall) (s : TCPSocket) (h : s.isOpen = false)
    (no : ∀ c ∈ calls, c.isOpening = false) :
    (tcpAfter calls s).isOpen = false ∧ (tcpAfter calls s).sent = s.sent := by
  induction calls generalizing s with
  | nil => exact ⟨h, rfl⟩
  | cons c cs ih =>
    have no' : ∀ c ∈ cs, c.isOpening = false := fun c hc => no c (List.mem_cons_of_mem _ hc)
    cases c with
    | «open» env => exact absurd (no _ List.mem_cons_self) (by simp [SocketCall.isOpening])
    | close => exact ih _ rfl no'
    | send b a =>
      have e : (TCPSocket.send b (if a then some b.length else none) s).2 = s := by simp [TCPSocket.send, h]
      simpa only [tcpAfter, e] using ih s h no'
    | arrive x b =>
      have e : TCPSocket.arrive b s = s := by simp [TCPSocket.arrive, h]
      simpa only [tcpAfter, e] using ih s h no'

/-- C101 for TCP. After `close`, and until the socket is opened again, every `send` and every `receive` throws, and nothing
is sent. -/
theorem c101_tcp (s : TCPSocket) (works : Bool) (calls : List SocketCall) (no : ∀ c ∈ calls, c.isOpening = false) (bytes : Bytes)
    (accepts : Option Nat) (n : Nat) (delivers : Option Nat) :
    (TCPSocket.send bytes accepts (tcpAfter calls (TCPSocket.close works s).2)).1 = .throw systemError ∧
    (TCPSocket.receive n delivers (tcpAfter calls (TCPSocket.close works s).2)).1 = .throw systemError ∧
    (tcpAfter calls (TCPSocket.close works s).2).sent = s.sent := by
  obtain ⟨h1, h2⟩ := tcpAfter_closed calls (TCPSocket.close works s).2 rfl no
  exact ⟨by simp [TCPSocket.send, h1], by simp [TCPSocket.receive, h1], h2⟩

theorem arrivals_cons (c : SocketCall) (cs : List SocketCall) : arrivals (c :: cs) = arrivals [c] ++ arrivals cs := by
  cases c <;> simp [arrivals]

theorem udpAfter_inbox (calls : List SocketCall) (s : UDPSocket) (d : Endpoint × Bytes)
    (h : d ∈ (udpAfter calls s).inbox) : d ∈ s.inbox ∨ d.2 ∈ arrivals calls := by
  induction calls generalizing s with
  | nil => exact .inl h
  | cons c cs ih =>
    rw [arrivals_cons]
    have later : d.2 ∈ arrivals cs → d.2 ∈ arrivals [c] ++ arrivals cs := List.mem_append_right _
    cases c with
    | «open» env =>
      refine (ih _ h).imp (fun h => ?_) later
      revert h
      unfold UDPSocket.open
      split
      · exact id
      · dsimp only
        repeat' split
        all_goals exact id
    | close =>
      rcases ih _ h with h | h
      · cases h
      · exact .inr (later h)
    | send b a =>
      refine (ih _ h).imp (fun h => ?_) later
      revert h
      unfold UDPSocket.send
      split <;> exact id
    | arrive x b =>
      rcases ih _ h with h | h
      · revert h
        unfold UDPSocket.arrive
        split
        · intro h
          rcases List.mem_append.mp h with h | h
          · exact .inl h
          · rw [List.mem_singleton] at h
            exact .inr (List.mem_append_left _ (by simp [arrivals, h]))
        · exact .inl
      · exact .inr (later h)

/-- C101 for UDP. What is received after `close` and further calls is the beginning of a datagram that arrived after the
`close`: datagrams that were pending are never delivered. -/
theorem c101_udp_fresh (s : UDPSocket) (works : Bool) (calls : List SocketCall) (n : Nat) (bytes : Bytes) (s' : UDPSocket)
    (h : UDPSocket.receive n (udpAfter calls (UDPSocket.close works s).2) = (.ok (some bytes), s')) :
    ∃ b ∈ arrivals calls, bytes = b.take n := by
  have key := udpAfter_inbox calls (UDPSocket.close works s).2
  generalize udpAfter calls (UDPSocket.close works s).2 = t at h key
  unfold UDPSocket.receive at h
  split at h
  · cases congrArg Prod.fst h
  · split at h
    · cases congrArg Prod.fst h
    · next d rest hd =>
      have e := congrArg Prod.fst h
      simp only [Res.ok.injEq, Option.some.injEq] at e
      rcases key d (by rw [hd]; exact List.mem_cons_self) with k | k
      · cases k
      · exact ⟨d.2, k, e.symm⟩

theorem tcp_connect_inbox (env : OpenEnv) (eps : List Endpoint) (s : TCPSocket) :
    (TCPSocket.connect env eps s).2.inbox = [] ∨ (TCPSocket.connect env eps s).2 = s := by
  induction eps generalizing s with
  | nil => exact .inr rfl
  | cons e eps ih =>
    unfold TCPSocket.connect
    split
    · rcases ih { s with isOpen := false, peer := none, inbox := [] } with h | h
      · exact .inl h
      · exact .inl (by rw [h])
    · split
      · exact .inl rfl
      · rcases ih { s with isOpen := true, peer := none, inbox := [] } with h | h
        · exact .inl h
        · exact .inl (by rw [h])

/-- What is pending on a TCP socket is the end of what has arrived so far. -/
theorem tcpAfter_inbox (calls : List SocketCall) (s : TCPSocket) (all : Bytes) (h : ∃ pre, pre ++ s.inbox = all) 
    (idle : s.isOpen = false ∨ s.peer = none → s.inbox = []) :
    ∃ pre, pre ++ (tcpAfter calls s).inbox = all ++ (arrivals calls).flatten := by
  induction calls generalizing s all with
  | nil =>
    obtain ⟨pre, h⟩ := h
    exact ⟨pre, by simpa [arrivals, tcpAfter] using h⟩
  | cons c cs ih =>
    rw [arrivals_cons, List.flatten_append, ← List.append_assoc]
    cases c with
    | «open» env =>
      have e : (arrivals [SocketCall.open env]).flatten = [] := rfl
      rw [e, List.append_nil]
      have k : (TCPSocket.open env s).2.inbox = [] ∨ (TCPSocket.open env s).2 = s := by
        unfold TCPSocket.open
        split
        · exact .inr rfl
        · exact tcp_connect_inbox env _ s
      rcases k with k | k
      · exact ih _ _ ⟨all, by rw [k, List.append_nil]⟩ (fun _ => k)
      · rw [tcpAfter, k]
        exact ih s all h idle
    | close works =>
      have e : (arrivals [SocketCall.close works]).flatten = [] := rfl
      rw [e, List.append_nil]
      exact ih _ _ ⟨all, List.append_nil _⟩ (fun _ => rfl)
    | send b a =>
      have e : (arrivals [SocketCall.send b a]).flatten = [] := rfl
      rw [e, List.append_nil]
      have k : (TCPSocket.send b (if a then some b.length else none) s).2.inbox = s.inbox ∧
          (TCPSocket.send b (if a then some b.length else none) s).2.isOpen = s.isOpen ∧
          (TCPSocket.send b (if a then some b.length else none) s).2.peer = s.peer := by
        unfold TCPSocket.send
        split <;> exact ⟨rfl, rfl, rfl⟩
      refine ih _ _ (by rw [k.1]; exact h) (by rw [k.1, k.2.1, k.2.2]; exact idle)
    | arrive x b =>
      have e : (arrivals [SocketCall.arrive x b]).flatten = b := by simp [arrivals]
      rw [e]
      obtain ⟨pre, h⟩ := h
      rcases hs : (s.isOpen, s.peer) with ⟨(_ | _), (_ | p)⟩
      all_goals simp only [Prod.mk.injEq] at hs
      · have e : TCPSocket.arrive b s = s := by simp [TCPSocket.arrive, hs]
        rw [tcpAfter, e]
        exact ih s _ ⟨all ++ b, by rw [idle (.inl hs.1), List.append_nil]⟩ idle
      · have e : TCPSocket.arrive b s = s := by simp [TCPSocket.arrive, hs]
        rw [tcpAfter, e]
        exact ih s _ ⟨all ++ b, by rw [idle (.inl hs.1), List.append_nil]⟩ idle
      · have e : TCPSocket.arrive b s = s := by simp [TCPSocket.arrive, hs]
        rw [tcpAfter, e]
        exact ih s _ ⟨all ++ b, by rw [idle (.inr hs.2), List.append_nil]⟩ idle
      · have e : TCPSocket.arrive b s = { s with inbox := s.inbox ++ b } := by simp [TCPSocket.arrive, hs]
        rw [tcpAfter, e]
        refine ih _ _ ⟨pre, by rw [← h, List.append_assoc]⟩ ?_
        rintro (h | h)
        · exact absurd (hs.1.symm.trans h) (by simp)
        · exact absurd (hs.2.symm.trans h) (by simp)

/-- C101 for TCP. What is received after `close` and further calls is a piece of what arrived after the `close`: bytes that
were pending are never delivered. -/
theorem c101_tcp_fresh (s : TCPSocket) (works : Bool) (calls : List SocketCall) (n : Nat) (delivers : Option Nat) (bytes : Bytes)
    (s' : TCPSocket) (h : TCPSocket.receive n delivers (tcpAfter calls (TCPSocket.close works s).2) = (.ok (some bytes), s')) :
    bytes.length ≤ n ∧ ∃ before after, before ++ bytes ++ after = (arrivals calls).flatten := by
  obtain ⟨pre, key⟩ := tcpAfter_inbox calls (TCPSocket.close works s).2 [] ⟨[], rfl⟩ (fun _ => rfl)
  generalize tcpAfter calls (TCPSocket.close works s).2 = t at h key
  unfold TCPSocket.receive at h
  split at h
  · next k _ _ =>
    split at h
    · cases congrArg Prod.fst h
    · have e := congrArg Prod.fst h
      simp only [Res.ok.injEq, Option.some.injEq] at e
      subst e
      refine ⟨?_, pre, t.inbox.drop (min n (max 1 k)), ?_⟩
      · rw [List.length_take]; omega
      · rw [List.append_assoc, List.take_append_drop]
        exact key
  · cases congrArg Prod.fst h

/-- A datagram and a byte that were pending at `close` are gone after opening again; what arrives then is received. -/
example :
    (UDPSocket.receive 10 (udpAfter [.open ⟨[⟨10, 2222⟩], true, true, fun _ => true⟩, .arrive ⟨10, 2222⟩ [7]]
      (UDPSocket.close true ⟨true, true, ⟨0, 2222⟩, ⟨10, 2222⟩, [], [(⟨10, 2222⟩, [1, 2])]⟩).2)).1 = .ok (some [7]) ∧
    (TCPSocket.receive 10 (some 1) (tcpAfter [.open ⟨[⟨10, 44818⟩], true, true, fun _ => true⟩, .arrive ⟨10, 44818⟩ [7, 8]]
      (TCPSocket.close true ⟨true, some ⟨10, 44818⟩, [], [1, 2]⟩).2)).1 = .ok (some [7]) := by decide
example : ∀ c ∈ [SocketCall.arrive ⟨1, 2⟩ [3], .send [4] true], c.isOpening = false := by decide

end Eip
