import Verif.Lemmas.Wired
import Verif.Spec.Possible
/-
What can happen on the library's sockets, in terms of the calls and their results.
-/
namespace Eip
open Spec

variable {dns : String → String → List Endpoint}

/-- What matters of the sockets. -/
def lineOf (k : Sockets) : Line := ⟨k.tcp.isOpen, k.tcp.isOpen && k.tcp.peer.isSome, k.udp.isOpen, k.udp.isOpen && k.udp.bound⟩

/-- Nothing waits at a socket nothing can arrive at. -/
def Settled (k : Sockets) : Prop := (k.udp.isOpen && k.udp.bound) = false → k.udp.inbox = []

theorem TCPSocket.connect_line {env : OpenEnv} {eps : List Endpoint} {s t : TCPSocket} {e : Exn}
    (h : TCPSocket.connect env eps s = (.throw e, t)) (ne : eps ≠ []) : (t.isOpen && t.peer.isSome) = false := by
  induction eps generalizing s with
  | nil => exact absurd rfl ne
  | cons ep eps ih =>
    unfold TCPSocket.connect at h
    cases eps with
    | nil =>
      split at h
      · cases h; rfl
      · split at h
        · cases h
        · cases h; rfl
    | cons ep' eps =>
      split at h
      · exact ih h (by simp)
      · split at h
        · cases h
        · exact ih h (by simp)

theorem known_some {env : OpenEnv} {host port : String} (known : env.resolved = dns host port ∨ env.resolved = [])
    {ep : Endpoint} (h : ep ∈ env.resolved) : dns host port ≠ [] := by
  rcases known with e | e
  · rw [← e]
    exact List.ne_nil_of_mem h
  · rw [e] at h; cases h

theorem Happens.can {k k' : Sockets} {ev : Ev} (h : Happens dns k (.call ev) k') (st : Settled k) :
    Can dns (lineOf k) ev (lineOf k') ∧ Settled k' := by
  cases h with
  | tcpOpen host port env known ok t e =>
    refine ⟨?_, st⟩
    cases ok with
    | true =>
      obtain ⟨ep, hm, _, hp, ho, _⟩ := TCPSocket.open_peer e
      have : lineOf { k with tcp := t } = { lineOf k with tcpOpen := true, connected := true } := by simp [lineOf, hp, ho]
      rw [this]
      exact .connects _ host port (known_some known hm)
    | false =>
      unfold TCPSocket.open at e
      split at e
      · obtain rfl : k.tcp = t := congrArg Prod.snd e
        exact .unresolved _ .tcp host port
      · next hne =>
        have : lineOf { k with tcp := t } = { lineOf k with tcpOpen := t.isOpen, connected := false } := by
          simp only [lineOf, TCPSocket.connect_line e hne]
        rw [this]
        refine .refused _ host port ?_ _
        rcases known with h | h
        · rw [← h]; exact hne
        · exact absurd h hne
  | udpOpen host port env known ok u e =>
    unfold UDPSocket.open at e
    split at e
    · cases ok with
      | true => cases congrArg Prod.fst e
      | false =>
        obtain rfl : k.udp = u := congrArg Prod.snd e
        exact ⟨.unresolved _ .io host port, st⟩
    · next ep more hr =>
      have hk : dns host port ≠ [] := known_some known (hr ▸ List.mem_cons_self)
      dsimp only at e
      split at e
      · cases ok with
        | true => cases congrArg Prod.fst e
        | false =>
          obtain rfl : _ = u := congrArg Prod.snd e
          exact ⟨.unresolved _ .io host port, st⟩
      · next hc =>
        have hc : k.udp.isOpen = false := by simpa using hc
        split at e
        · cases ok with
          | true => cases congrArg Prod.fst e
          | false =>
            obtain rfl : _ = u := congrArg Prod.snd e
            exact ⟨.unresolved _ .io host port, st⟩
        · split at e
          · cases ok with
            | true => cases congrArg Prod.fst e
            | false =>
              obtain rfl : _ = u := congrArg Prod.snd e
              exact ⟨.portTaken _ host port hk hc, fun _ => st (by simp [hc])⟩
          · cases ok with
            | true =>
              obtain rfl : _ = u := congrArg Prod.snd e
              exact ⟨.opens _ host port hk hc, fun _ => st (by simp [hc])⟩
            | false => cases congrArg Prod.fst e
  | tcpClose works ok t e =>
    obtain rfl : _ = t := congrArg Prod.snd e
    refine ⟨?_, st⟩
    cases ok with
    | true => exact .disconnects _
    | false =>
      refine .disconnectFails _ ?_
      cases h : k.tcp.isOpen with
      | true => exact h
      | false => cases (by simpa [TCPSocket.close, h] using congrArg Prod.fst e : False)
  | udpClose works ok u e =>
    obtain rfl : _ = u := congrArg Prod.snd e
    refine ⟨?_, fun _ => rfl⟩
    cases ok with
    | true => exact .closes _
    | false =>
      refine .closeFails _ ?_
      cases h : k.udp.isOpen with
      | true => exact h
      | false => cases (by simpa [UDPSocket.close, h] using congrArg Prod.fst e : False)
  | tcpSend b accepts n ok t e =>
    refine ⟨?_, st⟩
    obtain ⟨h1, h2, _⟩ := TCPSocket.send_sent e
    have : lineOf { k with tcp := t } = lineOf k := by simp [lineOf, h1, h2]
    rw [this]
    cases ok with
    | false => exact .unsent _ .tcp b
    | true =>
      refine .sends _ b ?_
      unfold TCPSocket.send at e
      split at e
      · next p a ho hp => simp [lineOf, ho, hp]
      · cases congrArg Prod.fst e
  | udpSend b accepts n ok u e =>
    unfold UDPSocket.send at e
    split at e
    · cases ok with
      | true => cases congrArg Prod.fst e
      | false =>
        obtain rfl : _ = u := congrArg Prod.snd e
        exact ⟨.unsent _ .io b, st⟩
    · next hc =>
      cases ok with
      | false => cases congrArg Prod.fst e
      | true =>
        obtain rfl : _ = u := congrArg Prod.snd e
        have ho : k.udp.isOpen = true := by
          cases h : k.udp.isOpen <;> simp_all
        have := Can.sendsIO (dns := dns) (lineOf k) b ho
        refine ⟨?_, fun h => by simp [ho] at h⟩
        have e1 : lineOf { k with udp := { k.udp with bound := true, sent := k.udp.sent ++ [(k.udp.remoteEndpoint, b)] } } =
            { lineOf k with ioBound := true } := by simp [lineOf, ho]
        rw [e1]
        exact this
  | tcpReceive delivers b ok t e =>
    refine ⟨?_, st⟩
    obtain ⟨h1, h2, _⟩ := TCPSocket.receive_same e
    have : lineOf { k with tcp := t } = lineOf k := by simp [lineOf, h1, h2]
    rw [this]
    cases ok with
    | false => exact .lost _ b
    | true =>
      unfold TCPSocket.receive at e
      split at e
      · next n ho hp =>
        split at e
        · cases congrArg Prod.fst e
        · next hi =>
          have e1 : k.tcp.inbox.take (min 4096 (max 1 n)) = b := by simpa using congrArg Prod.fst e
          refine .receives _ b (by simp [lineOf, ho, hp]) ?_ ?_
          · rw [← e1]
            intro hn
            have := congrArg List.length hn
            have hpos := List.length_pos_iff.mpr hi
            simp only [List.length_take, List.length_nil] at this
            omega
          · rw [← e1, List.length_take]; omega
      · cases congrArg Prod.fst e
  | udpReceive b ok u e =>
    unfold UDPSocket.receive at e
    split at e
    · next hc =>
      cases ok with
      | true => cases congrArg Prod.fst e
      | false =>
        obtain rfl : _ = u := congrArg Prod.snd e
        exact ⟨.unopened _ b (by simpa [lineOf] using hc), st⟩
    · next hc =>
      have ho : k.udp.isOpen = true := by simpa using hc
      split at e
      · cases ok <;> cases congrArg Prod.fst e
      · next d rest hi =>
        cases ok with
        | false => cases congrArg Prod.fst e
        | true =>
          have e1 : d.2.take 4096 = b := by simpa using congrArg Prod.fst e
          obtain rfl : _ = u := congrArg Prod.snd e
          have hb : (k.udp.isOpen && k.udp.bound) = true := by
            cases h : (k.udp.isOpen && k.udp.bound)
            · rw [st h] at hi; cases hi
            · rfl
          refine ⟨.receivesIO _ b ho hb ?_, fun h => ?_⟩
          · rw [← e1, List.length_take]; omega
          · exact absurd (hb.symm.trans h) (by decide)

theorem Happens.arrival_line {k k' : Sockets} {a : NetAct} (h : Happens dns k a k') (n : calls [a] = []) (st : Settled k) :
    lineOf k' = lineOf k ∧ Settled k' := by
  cases h with
  | bytes b =>
    refine ⟨?_, st⟩
    obtain ⟨h1, h2, _⟩ := TCPSocket.arrive_same k.tcp b
    simp [lineOf, h1, h2]
  | datagram s b =>
    unfold UDPSocket.arrive
    split
    · next h => exact ⟨rfl, fun h' => absurd (h.symm.trans h') (by decide)⟩
    · exact ⟨rfl, st⟩
  | _ => cases n

theorem AllHappen.can {k k' : Sockets} {as : List NetAct} (h : AllHappen dns k as k') (st : Settled k) :
    CanAll dns (lineOf k) (calls as) (lineOf k') ∧ Settled k' := by
  induction h with
  | nil => exact ⟨.nil _, st⟩
  | @cons k1 k2 k3 a as h t ih =>
    cases a with
    | call ev =>
      obtain ⟨h1, h2⟩ := h.can st
      obtain ⟨h3, h4⟩ := ih h2
      exact ⟨.cons h1 h3, h4⟩
    | bytes b =>
      obtain ⟨h1, h2⟩ := h.arrival_line rfl st
      obtain ⟨h3, h4⟩ := ih h2
      rw [h1] at h3
      exact ⟨h3, h4⟩
    | datagram s b =>
      obtain ⟨h1, h2⟩ := h.arrival_line rfl st
      obtain ⟨h3, h4⟩ := ih h2
      rw [h1] at h3
      exact ⟨h3, h4⟩

/-! ### The other way -/

/-- Nothing waits. -/
def Quiet (k : Sockets) : Prop := k.tcp.inbox = [] ∧ k.udp.inbox = []

theorem Quiet.settled {k : Sockets} (h : Quiet k) : Settled k := fun _ => h.2

/-- The answers of the system to an open that works, for a name with these endpoints. -/
def openWorks (eps : List Endpoint) : OpenEnv := ⟨eps, true, true, fun _ => true⟩

/-- The answers of the system when nobody accepts the connection, and the local port is taken. -/
def openRefused (eps : List Endpoint) (creates : Bool := true) : OpenEnv := ⟨eps, creates, false, fun _ => false⟩

theorem TCPSocket.connect_refused (eps eps' : List Endpoint) (creates : Bool) (s : TCPSocket) :
    ∃ t, TCPSocket.connect (openRefused eps' creates) eps s = (.throw systemError, t) ∧ (s.inbox = [] → t.inbox = []) ∧
      (eps ≠ [] ∨ s.isOpen = creates → t.isOpen = creates) := by
  induction eps generalizing s with
  | nil => exact ⟨s, rfl, id, fun h => h.resolve_left (fun n => n rfl)⟩
  | cons ep eps ih =>
    obtain ⟨t, h1, h2, h3⟩ := ih { s with isOpen := creates, peer := none, inbox := [] }
    refine ⟨t, ?_, fun _ => h2 rfl, fun _ => h3 (.inr rfl)⟩
    cases creates <;> (simp [TCPSocket.connect, openRefused] at h1 ⊢; exact h1)

/-- Whatever can happen does happen, if the right things arrive. -/
theorem Spec.Can.happens {k : Sockets} (q : Quiet k) {ev : Ev} {l' : Line} (h : Can dns (lineOf k) ev l') :
    ∃ as k', AllHappen dns k as k' ∧ calls as = [ev] ∧ lineOf k' = l' ∧ Quiet k' := by
  have one : ∀ {k' : Sockets}, Happens dns k (.call ev) k' → lineOf k' = l' → Quiet k' →
      ∃ as k', AllHappen dns k as k' ∧ calls as = [ev] ∧ lineOf k' = l' ∧ Quiet k' :=
    fun h1 h2 h3 => ⟨[.call ev], _, .cons h1 (.nil _), rfl, h2, h3⟩
  generalize hl : lineOf k = l at h
  cases h with
  | connects host port known =>
    obtain ⟨ep, eps, he⟩ := List.exists_cons_of_ne_nil known
    refine one (.tcpOpen k host port (openWorks (dns host port)) (.inl rfl) true
      { k.tcp with isOpen := true, peer := some ep, inbox := [] } ?_) ?_ ⟨rfl, q.2⟩
    · simp [TCPSocket.open, openWorks, he, TCPSocket.connect]
    · rw [← hl]; rfl
  | unresolved s host port =>
    cases s with
    | tcp => exact one (.tcpOpen k host port (openWorks []) (.inr rfl) false k.tcp rfl) hl q
    | io => exact one (.udpOpen k host port (openWorks []) (.inr rfl) false k.udp rfl) hl q
  | refused host port known isOpen =>
    obtain ⟨ep, eps, he⟩ := List.exists_cons_of_ne_nil known
    obtain ⟨t, h1, h2, h3⟩ := TCPSocket.connect_refused (dns host port) (dns host port) isOpen k.tcp
    refine one (.tcpOpen k host port (openRefused (dns host port) isOpen) (.inl rfl) false t ?_) ?_ ⟨h2 q.1, q.2⟩
    · show TCPSocket.open _ _ = (.throw systemError, t)
      rw [← h1]
      simp only [TCPSocket.open, openRefused, he]
    · have := TCPSocket.connect_line h1 known
      rw [← hl]
      simp only [lineOf, this]
      rw [h3 (.inl known)]
  | opens host port known closed =>
    obtain ⟨ep, eps, he⟩ := List.exists_cons_of_ne_nil known
    have hc : k.udp.isOpen = false := by rw [← hl] at closed; exact closed
    refine one (.udpOpen k host port (openWorks (dns host port)) (.inl rfl) true
      { k.udp with remoteEndpoint := ep, isOpen := true, bound := true } ?_) ?_ q
    · simp [UDPSocket.open, openWorks, he, hc]
    · rw [← hl]; rfl
  | portTaken host port known closed =>
    obtain ⟨ep, eps, he⟩ := List.exists_cons_of_ne_nil known
    have hc : k.udp.isOpen = false := by rw [← hl] at closed; exact closed
    refine one (.udpOpen k host port (openRefused (dns host port)) (.inl rfl) false
      { k.udp with remoteEndpoint := ep, isOpen := true, bound := false } ?_) ?_ q
    · simp [UDPSocket.open, openRefused, he, hc]
    · rw [← hl]; rfl
  | disconnects => exact one (.tcpClose k true true (TCPSocket.close true k.tcp).2 (by simp [TCPSocket.close])) (by rw [← hl]; rfl) ⟨rfl, q.2⟩
  | closes => exact one (.udpClose k true true (UDPSocket.close true k.udp).2 (by simp [UDPSocket.close])) (by rw [← hl]; rfl) ⟨q.1, rfl⟩
  | disconnectFails isOpen =>
    have ho : k.tcp.isOpen = true := by rw [← hl] at isOpen; exact isOpen
    exact one (.tcpClose k false false (TCPSocket.close false k.tcp).2 (by simp [TCPSocket.close, ho])) (by rw [← hl]; rfl) ⟨rfl, q.2⟩
  | closeFails isOpen =>
    have ho : k.udp.isOpen = true := by rw [← hl] at isOpen; exact isOpen
    exact one (.udpClose k false false (UDPSocket.close false k.udp).2 (by simp [UDPSocket.close, ho])) (by rw [← hl]; rfl) ⟨q.1, rfl⟩
  | sends b connected =>
    obtain ⟨ho, hp⟩ : k.tcp.isOpen = true ∧ k.tcp.peer.isSome = true := by
      rw [← hl] at connected; simpa [lineOf] using connected
    obtain ⟨p, hp⟩ := Option.isSome_iff_exists.mp hp
    refine one (.tcpSend k b (some b.length) b.length true { k.tcp with sent := k.tcp.sent ++ [(p, b)] } ?_) ?_ q
    · simp [TCPSocket.send, ho, hp]
    · rw [← hl]; rfl
  | sendsIO b isOpen =>
    have ho : k.udp.isOpen = true := by rw [← hl] at isOpen; exact isOpen
    refine one (.udpSend k b true b.length true
      { k.udp with bound := true, sent := k.udp.sent ++ [(k.udp.remoteEndpoint, b)] } ?_) ?_ q
    · simp [UDPSocket.send, ho]
    · rw [← hl]; simp [lineOf, ho]
  | unsent s b =>
    cases s with
    | tcp =>
      refine one (.tcpSend k b none 0 false k.tcp ?_) hl q
      simp [TCPSocket.send]
    | io =>
      refine one (.udpSend k b false 0 false k.udp ?_) hl q
      simp [UDPSocket.send]
  | receives b connected some fits =>
    obtain ⟨ho, hp⟩ : k.tcp.isOpen = true ∧ k.tcp.peer.isSome = true := by
      rw [← hl] at connected; simpa [lineOf] using connected
    obtain ⟨p, hp⟩ := Option.isSome_iff_exists.mp hp
    refine ⟨[.bytes b, .call _], k, .cons (.bytes k b) (.cons (.tcpReceive _ (Option.some b.length) b true k.tcp ?_) (.nil _)), rfl,
      hl, q⟩
    have e : k.tcp.arrive b = { k.tcp with inbox := b } := by
      simp [TCPSocket.arrive, ho, hp, q.1]
    have hpos := List.length_pos_iff.mpr some
    have hm : min 4096 (max 1 b.length) = b.length := by omega
    show TCPSocket.receive 4096 (Option.some b.length) (k.tcp.arrive b) = _
    rw [e]
    simp only [TCPSocket.receive, ho, hp, if_neg some, hm, List.take_length, List.drop_length]
    cases hk : k.tcp
    rw [hk] at ho hp
    have hq := q.1
    rw [hk] at hq
    cases ho; cases hp; cases hq
    rfl
  | receivesIO b isOpen bound fits =>
    obtain ⟨ho, hb⟩ : k.udp.isOpen = true ∧ k.udp.bound = true := by
      rw [← hl] at bound; simpa [lineOf] using bound
    refine ⟨[.datagram ⟨0, 0⟩ b, .call _], k, .cons (.datagram k ⟨0, 0⟩ b) (.cons (.udpReceive _ b true k.udp ?_) (.nil _)), rfl,
      hl, q⟩
    have e : k.udp.arrive ⟨0, 0⟩ b = { k.udp with inbox := [(⟨0, 0⟩, b)] } := by
      simp [UDPSocket.arrive, ho, hb, q.2]
    show UDPSocket.receive 4096 (k.udp.arrive ⟨0, 0⟩ b) = _
    rw [e]
    simp only [UDPSocket.receive, ho, Bool.not_true, Bool.false_eq_true, if_false, List.take_of_length_le fits]
    cases hk : k.udp
    rw [hk] at ho hb
    have hq := q.2
    rw [hk] at hq
    cases ho; cases hb; cases hq
    rfl
  | lost b =>
    refine one (.tcpReceive k none b false k.tcp ?_) hl q
    simp [TCPSocket.receive]
  | unopened b closed =>
    have hc : k.udp.isOpen = false := by rw [← hl] at closed; exact closed
    refine one (.udpReceive k b false k.udp ?_) hl q
    simp [UDPSocket.receive, hc]

theorem Spec.CanAll.happens {k : Sockets} (q : Quiet k) {evs : List Ev} {l' : Line} (h : CanAll dns (lineOf k) evs l') :
    ∃ as k', AllHappen dns k as k' ∧ calls as = evs ∧ lineOf k' = l' ∧ Quiet k' := by
  generalize hl : lineOf k = l at h
  induction h generalizing k with
  | nil l => exact ⟨[], k, .nil k, rfl, hl, q⟩
  | cons h t ih =>
    subst hl
    obtain ⟨as, k1, h1, h2, h3, h4⟩ := h.happens q
    obtain ⟨bs, k2, h5, h6, h7, h8⟩ := ih h4 h3
    exact ⟨as ++ bs, k2, h1.append h5, by rw [calls_append, h2, h6]; rfl, h7, h8⟩

end Eip
