import Verif.Model.Wired
import Verif.Lemmas.Effects
import Verif.Spec.Sockets
/-
A session over the sockets of the library: what calls do to the sockets.
-/
namespace Eip
open Spec

variable {dns : String → String → List Endpoint}

theorem calls_append (a b : List NetAct) : calls (a ++ b) = calls a ++ calls b := List.filterMap_append

theorem calls_call (e : Ev) (as : List NetAct) : calls (.call e :: as) = e :: calls as := rfl

theorem calls_bytes (b : Bytes) (as : List NetAct) : calls (.bytes b :: as) = calls as := rfl

theorem calls_datagram (s : Endpoint) (b : Bytes) (as : List NetAct) : calls (.datagram s b :: as) = calls as := rfl

theorem calls_nil : calls [] = [] := rfl

theorem AllHappen.append {k k' k'' : Sockets} {a b : List NetAct} (h : AllHappen dns k a k') (h' : AllHappen dns k' b k'') :
    AllHappen dns k (a ++ b) k'' := by
  induction h with
  | nil => exact h'
  | cons x _ ih => exact .cons x (ih h')

theorem AllHappen.split {k k'' : Sockets} {a b : List NetAct} (h : AllHappen dns k (a ++ b) k'') :
    ∃ k', AllHappen dns k a k' ∧ AllHappen dns k' b k'' := by
  induction a generalizing k with
  | nil => exact ⟨k, .nil k, h⟩
  | cons x a ih =>
    cases h with
    | cons h t =>
      obtain ⟨k', h1, h2⟩ := ih t
      exact ⟨k', .cons h h1, h2⟩

/-- The things that happen up to and including the first call. -/
theorem calls_split {as : List NetAct} {e : Ev} {es : List Ev} (h : calls as = e :: es) :
    ∃ before after, as = before ++ .call e :: after ∧ calls before = [] ∧ calls after = es := by
  induction as with
  | nil => cases h
  | cons a as ih =>
    cases a with
    | call ev =>
      have h : ev :: calls as = e :: es := h
      cases h
      exact ⟨[], as, rfl, rfl, rfl⟩
    | bytes b =>
      obtain ⟨x, y, h1, h2, h3⟩ := ih h
      exact ⟨.bytes b :: x, y, by rw [h1]; rfl, h2, h3⟩
    | datagram s b =>
      obtain ⟨x, y, h1, h2, h3⟩ := ih h
      exact ⟨.datagram s b :: x, y, by rw [h1]; rfl, h2, h3⟩

theorem calls_at {as : List NetAct} {es es' : List Ev} {e : Ev} (h : calls as = es ++ e :: es') :
    ∃ before after, as = before ++ .call e :: after ∧ calls before = es ∧ calls after = es' := by
  induction es generalizing as with
  | nil => exact calls_split h
  | cons d es ih =>
    obtain ⟨x, y, rfl, h1, h2⟩ := calls_split h
    obtain ⟨x', y', rfl, h3, h4⟩ := ih h2
    exact ⟨x ++ .call d :: x', y', by simp, by rw [calls_append, h1, calls_call, h3]; rfl, h4⟩

theorem AllHappen.at {k k' : Sockets} {as : List NetAct} {es es' : List Ev} {e : Ev} (h : AllHappen dns k as k')
    (hc : calls as = es ++ e :: es') :
    ∃ k1 k2 before after, AllHappen dns k before k1 ∧ calls before = es ∧ Happens dns k1 (.call e) k2 ∧
      AllHappen dns k2 after k' ∧ calls after = es' := by
  obtain ⟨x, y, rfl, h1, h2⟩ := calls_at hc
  obtain ⟨k1, a, b⟩ := h.split
  cases b with
  | cons b c => exact ⟨k1, _, x, y, a, h1, b, c, h2⟩

theorem AllHappen.first {k k' : Sockets} {as : List NetAct} {e : Ev} {es : List Ev} (h : AllHappen dns k as k')
    (hc : calls as = e :: es) :
    ∃ k1 k2 before after, AllHappen dns k before k1 ∧ calls before = [] ∧ Happens dns k1 (.call e) k2 ∧
      AllHappen dns k2 after k' ∧ calls after = es := by
  obtain ⟨x, y, rfl, h1, h2⟩ := calls_split hc
  obtain ⟨k1, a, b⟩ := h.split
  cases b with
  | cons b c => exact ⟨k1, _, x, y, a, h1, b, c, h2⟩

/-! ### One socket -/

theorem TCPSocket.arrive_same (s : TCPSocket) (b : Bytes) :
    (s.arrive b).isOpen = s.isOpen ∧ (s.arrive b).peer = s.peer ∧ (s.arrive b).sent = s.sent := by
  unfold TCPSocket.arrive
  split <;> exact ⟨rfl, rfl, rfl⟩

theorem UDPSocket.arrive_same (s : UDPSocket) (e : Endpoint) (b : Bytes) :
    (s.arrive e b).isOpen = s.isOpen ∧ (s.arrive e b).remoteEndpoint = s.remoteEndpoint ∧ (s.arrive e b).sent = s.sent := by
  unfold UDPSocket.arrive
  split <;> exact ⟨rfl, rfl, rfl⟩

theorem TCPSocket.send_sent {s t : TCPSocket} {b : Bytes} {a : Option Nat} {r : Res Nat} (h : s.send b a = (r, t)) :
    t.isOpen = s.isOpen ∧ t.peer = s.peer ∧ t.inbox = s.inbox ∧
      (t.sent = s.sent ∨ ∃ p n, s.peer = some p ∧ t.sent = s.sent ++ [(p, b.take n)]) := by
  unfold TCPSocket.send at h
  split at h
  · next p k h1 h2 => cases h; exact ⟨rfl, rfl, rfl, .inr ⟨p, _, h2, rfl⟩⟩
  · cases h; exact ⟨rfl, rfl, rfl, .inl rfl⟩

theorem TCPSocket.receive_same {s t : TCPSocket} {n : Nat} {d : Option Nat} {r : Res (Option Bytes)}
    (h : s.receive n d = (r, t)) : t.isOpen = s.isOpen ∧ t.peer = s.peer ∧ t.sent = s.sent := by
  unfold TCPSocket.receive at h
  split at h
  · split at h <;> cases h <;> exact ⟨rfl, rfl, rfl⟩
  · cases h; exact ⟨rfl, rfl, rfl⟩

theorem UDPSocket.send_sent {s t : UDPSocket} {b : Bytes} {a : Bool} {r : Res Nat} (h : s.send b a = (r, t)) :
    t.isOpen = s.isOpen ∧ t.remoteEndpoint = s.remoteEndpoint ∧ t.inbox = s.inbox ∧
      (t.sent = s.sent ∨ t.sent = s.sent ++ [(s.remoteEndpoint, b)]) := by
  unfold UDPSocket.send at h
  split at h <;> cases h
  · exact ⟨rfl, rfl, rfl, .inl rfl⟩
  · exact ⟨rfl, rfl, rfl, .inr rfl⟩

theorem UDPSocket.receive_same {s t : UDPSocket} {n : Nat} {r : Res (Option Bytes)} (h : s.receive n = (r, t)) :
    t.isOpen = s.isOpen ∧ t.remoteEndpoint = s.remoteEndpoint ∧ t.sent = s.sent := by
  unfold UDPSocket.receive at h
  split at h
  · cases h; exact ⟨rfl, rfl, rfl⟩
  · split at h <;> cases h <;> exact ⟨rfl, rfl, rfl⟩

theorem TCPSocket.connect_sent (env : OpenEnv) (eps : List Endpoint) (s : TCPSocket) :
    (TCPSocket.connect env eps s).2.sent = s.sent := by
  induction eps generalizing s with
  | nil => rfl
  | cons ep eps ih =>
    unfold TCPSocket.connect
    split
    · exact ih _
    · split
      · rfl
      · exact ih _

theorem TCPSocket.connect_peer (env : OpenEnv) (eps : List Endpoint) (s t : TCPSocket)
    (h : TCPSocket.connect env eps s = (.ok (), t)) :
    ∃ ep ∈ eps, env.connects ep = true ∧ t.peer = some ep ∧ t.isOpen = true ∧ t.inbox = [] := by
  induction eps generalizing s with
  | nil => cases h
  | cons ep eps ih =>
    unfold TCPSocket.connect at h
    split at h
    · obtain ⟨e, m, r⟩ := ih _ h
      exact ⟨e, List.mem_cons_of_mem _ m, r⟩
    · split at h
      · next hc => cases h; exact ⟨ep, List.mem_cons_self, hc, rfl, rfl, rfl⟩
      · obtain ⟨e, m, r⟩ := ih _ h
        exact ⟨e, List.mem_cons_of_mem _ m, r⟩

theorem TCPSocket.open_sent (env : OpenEnv) (s : TCPSocket) : (TCPSocket.open env s).2.sent = s.sent := by
  unfold TCPSocket.open
  split
  · rfl
  · exact connect_sent env _ s

theorem TCPSocket.open_peer {env : OpenEnv} {s t : TCPSocket} (h : TCPSocket.open env s = (.ok (), t)) :
    ∃ ep ∈ env.resolved, env.connects ep = true ∧ t.peer = some ep ∧ t.isOpen = true ∧ t.inbox = [] := by
  unfold TCPSocket.open at h
  split at h
  · cases h
  · exact connect_peer env _ s t h

theorem UDPSocket.open_cases {env : OpenEnv} {s t : UDPSocket} {r : Res Unit} (h : UDPSocket.open env s = (r, t)) :
    t.sent = s.sent ∧ t.inbox = s.inbox ∧
    ((r = .throw systemError ∧ env.resolved = [] ∧ t = s) ∨
    (∃ ep more, env.resolved = ep :: more ∧ t.remoteEndpoint = ep ∧
      ((r = .throw systemError ∧ t.isOpen = s.isOpen) ∨
       (r = .throw systemError ∧ s.isOpen = false ∧ env.creates = true ∧ env.portFree = false ∧ t.isOpen = true) ∨
       (r = .ok () ∧ s.isOpen = false ∧ env.creates = true ∧ env.portFree = true ∧ t.isOpen = true ∧ t.bound = true)))) := by
  unfold UDPSocket.open at h
  split at h
  · next hr => cases h; exact ⟨rfl, rfl, .inl ⟨rfl, hr, rfl⟩⟩
  · next ep more hr =>
    dsimp only at h
    split at h
    · cases h; exact ⟨rfl, rfl, .inr ⟨ep, more, hr, rfl, .inl ⟨rfl, rfl⟩⟩⟩
    · next ho =>
      have ho : s.isOpen = false := by simpa using ho
      split at h
      · cases h; exact ⟨rfl, rfl, .inr ⟨ep, more, hr, rfl, .inl ⟨rfl, rfl⟩⟩⟩
      · next hcr =>
        have hcr : env.creates = true := by simpa using hcr
        split at h
        · next hp =>
          have hp : env.portFree = false := by simpa using hp
          cases h
          exact ⟨rfl, rfl, .inr ⟨ep, more, hr, rfl, .inr (.inl ⟨rfl, ho, hcr, hp, rfl⟩)⟩⟩
        · next hp =>
          have hp : env.portFree = true := by simpa using hp
          cases h
          exact ⟨rfl, rfl, .inr ⟨ep, more, hr, rfl, .inr (.inr ⟨rfl, ho, hcr, hp, rfl, rfl⟩)⟩⟩

/-! ### Things that happen -/

theorem Happens.udp_open {k k' : Sockets} {a : NetAct} (h : Happens dns k a k') (o : k.udp.isOpen = true)
    (nc : ∀ ok, a ≠ .call (.closed .io ok)) : k'.udp.isOpen = true ∧ ∀ host port, a ≠ .call (.opened .io host port true) := by
  cases h with
  | udpOpen host port env known ok u e =>
    obtain ⟨_, _, ⟨hr, _, rfl⟩ | ⟨ep, more, _, _, ⟨hr, ho⟩ | ⟨_, ho, _⟩ | ⟨_, ho, _⟩⟩⟩ := UDPSocket.open_cases e
    · refine ⟨o, ?_⟩
      rintro _ _ ⟨⟩
      simp at hr
    · refine ⟨ho.trans o, ?_⟩
      rintro _ _ ⟨⟩
      simp at hr
    · rw [o] at ho; cases ho
    · rw [o] at ho; cases ho
  | udpClose works ok => exact absurd rfl (nc ok)
  | udpSend b acc n ok u e => exact ⟨(UDPSocket.send_sent e).1.trans o, by simp⟩
  | udpReceive b ok u e => exact ⟨(UDPSocket.receive_same e).1.trans o, by simp⟩
  | datagram s b => exact ⟨(UDPSocket.arrive_same k.udp s b).1.trans o, by simp⟩
  | tcpOpen => exact ⟨o, by simp⟩
  | tcpClose => exact ⟨o, by simp⟩
  | tcpSend => exact ⟨o, by simp⟩
  | tcpReceive => exact ⟨o, by simp⟩
  | bytes => exact ⟨o, by simp⟩

theorem mem_calls {ev : Ev} {as : List NetAct} : ev ∈ calls as ↔ .call ev ∈ as := by
  simp only [calls, List.mem_filterMap]
  constructor
  · rintro ⟨a, ha, h⟩
    cases a with
    | call e => simp only [Option.some.injEq] at h; rw [← h]; exact ha
    | bytes b => cases h
    | datagram s b => cases h
  · intro h
    exact ⟨_, h, rfl⟩

theorem AllHappen.udp_open {k k' : Sockets} {as : List NetAct} (h : AllHappen dns k as k') (o : k.udp.isOpen = true)
    (nc : ∀ ok, .closed .io ok ∉ calls as) :
    k'.udp.isOpen = true ∧ ∀ host port, .opened .io host port true ∉ calls as := by
  induction h with
  | nil => exact ⟨o, by simp [calls]⟩
  | @cons k1 k2 k3 a as h t ih =>
    simp only [mem_calls, List.mem_cons, not_or] at nc ih ⊢
    obtain ⟨o', n⟩ := h.udp_open o (fun ok h => (nc ok).1 h.symm)
    obtain ⟨o'', n'⟩ := ih o' (fun ok => (nc ok).2)
    exact ⟨o'', fun host port => ⟨fun h => n host port h.symm, n' host port⟩⟩

/-- Does the event open or close the I/O socket? -/
def Ev.touchesIO : Ev → Bool
  | .opened .io _ _ _ => true
  | .closed .io _ => true
  | _ => false

theorem Happens.udp_same {k k' : Sockets} {a : NetAct} (h : Happens dns k a k')
    (no : ∀ ev, a = .call ev → ev.touchesIO = false) : k'.udp.isOpen = k.udp.isOpen := by
  cases h with
  | udpOpen host port env known ok u e => cases no _ rfl
  | udpClose => cases no _ rfl
  | udpSend b acc n ok u e => exact (UDPSocket.send_sent e).1
  | udpReceive b ok u e => exact (UDPSocket.receive_same e).1
  | datagram s b => exact (UDPSocket.arrive_same k.udp s b).1
  | tcpOpen => rfl
  | tcpClose => rfl
  | tcpSend => rfl
  | tcpReceive => rfl
  | bytes => rfl

theorem AllHappen.udp_same {k k' : Sockets} {as : List NetAct} (h : AllHappen dns k as k')
    (no : ∀ ev ∈ calls as, ev.touchesIO = false) : k'.udp.isOpen = k.udp.isOpen := by
  induction h with
  | nil => rfl
  | @cons k1 k2 k3 a as h t ih =>
    simp only [mem_calls, List.mem_cons] at no ih
    exact (ih (fun ev h => no ev (.inr h))).trans (h.udp_same (fun ev e => no ev (.inl e.symm)))

/-- Where the traffic goes does not change, and what is sent goes there. -/
structure SameRoute (k k' : Sockets) : Prop where
  tcpOpen : k'.tcp.isOpen = k.tcp.isOpen
  peer : k'.tcp.peer = k.tcp.peer
  udpOpen : k'.udp.isOpen = k.udp.isOpen
  remote : k'.udp.remoteEndpoint = k.udp.remoteEndpoint
  tcpSent : ∃ new, k'.tcp.sent = k.tcp.sent ++ new ∧ ∀ x ∈ new, k.tcp.peer = some x.1
  udpSent : ∃ new, k'.udp.sent = k.udp.sent ++ new ∧ ∀ x ∈ new, x.1 = k.udp.remoteEndpoint

theorem SameRoute.refl (k : Sockets) : SameRoute k k := ⟨rfl, rfl, rfl, rfl, ⟨[], by simp, by simp⟩, ⟨[], by simp, by simp⟩⟩

theorem SameRoute.trans {k k' k'' : Sockets} (h : SameRoute k k') (h' : SameRoute k' k'') : SameRoute k k'' := by
  obtain ⟨n1, e1, m1⟩ := h.tcpSent
  obtain ⟨n1', e1', m1'⟩ := h'.tcpSent
  obtain ⟨n2, e2, m2⟩ := h.udpSent
  obtain ⟨n2', e2', m2'⟩ := h'.udpSent
  refine ⟨h'.tcpOpen.trans h.tcpOpen, h'.peer.trans h.peer, h'.udpOpen.trans h.udpOpen, h'.remote.trans h.remote,
    ⟨n1 ++ n1', by rw [e1', e1, List.append_assoc], fun x hx => ?_⟩,
    ⟨n2 ++ n2', by rw [e2', e2, List.append_assoc], fun x hx => ?_⟩⟩
  · rcases List.mem_append.1 hx with hx | hx
    · exact m1 x hx
    · rw [← h.peer]; exact m1' x hx
  · rcases List.mem_append.1 hx with hx | hx
    · exact m2 x hx
    · rw [← h.remote]; exact m2' x hx

/-- A call that neither opens nor closes. -/
def NetAct.plain : NetAct → Prop
  | .call (.opened ..) => False
  | .call (.closed ..) => False
  | _ => True

theorem Happens.route {k k' : Sockets} {a : NetAct} (h : Happens dns k a k') (p : a.plain) : SameRoute k k' := by
  cases h with
  | udpOpen => exact p.elim
  | tcpOpen => exact p.elim
  | udpClose => exact p.elim
  | tcpClose => exact p.elim
  | tcpSend b acc n ok t e =>
    obtain ⟨h1, h2, _, h3 | ⟨q, m, h3, h4⟩⟩ := TCPSocket.send_sent e
    · exact ⟨h1, h2, rfl, rfl, ⟨[], by simp [h3], by simp⟩, ⟨[], by simp, by simp⟩⟩
    · exact ⟨h1, h2, rfl, rfl, ⟨_, h4, by intro x hx; rw [List.mem_singleton.1 hx]; exact h3⟩, ⟨[], by simp, by simp⟩⟩
  | udpSend b acc n ok u e =>
    obtain ⟨h1, h2, _, h3 | h3⟩ := UDPSocket.send_sent e
    · exact ⟨rfl, rfl, h1, h2, ⟨[], by simp, by simp⟩, ⟨[], by simp [h3], by simp⟩⟩
    · exact ⟨rfl, rfl, h1, h2, ⟨[], by simp, by simp⟩, ⟨_, h3, by intro x hx; rw [List.mem_singleton.1 hx]⟩⟩
  | tcpReceive d b ok t e =>
    obtain ⟨h1, h2, h3⟩ := TCPSocket.receive_same e
    exact ⟨h1, h2, rfl, rfl, ⟨[], by simp [h3], by simp⟩, ⟨[], by simp, by simp⟩⟩
  | udpReceive b ok u e =>
    obtain ⟨h1, h2, h3⟩ := UDPSocket.receive_same e
    exact ⟨rfl, rfl, h1, h2, ⟨[], by simp, by simp⟩, ⟨[], by simp [h3], by simp⟩⟩
  | bytes b =>
    obtain ⟨h1, h2, h3⟩ := TCPSocket.arrive_same k.tcp b
    exact ⟨h1, h2, rfl, rfl, ⟨[], by simp [h3], by simp⟩, ⟨[], by simp, by simp⟩⟩
  | datagram s b =>
    obtain ⟨h1, h2, h3⟩ := UDPSocket.arrive_same k.udp s b
    exact ⟨rfl, rfl, h1, h2, ⟨[], by simp, by simp⟩, ⟨[], by simp [h3], by simp⟩⟩

theorem AllHappen.route {k k' : Sockets} {as : List NetAct} (h : AllHappen dns k as k') (p : ∀ a ∈ as, a.plain) :
    SameRoute k k' := by
  induction h with
  | nil => exact .refl _
  | @cons k1 k2 k3 a as h t ih =>
    exact (h.route (p a List.mem_cons_self)).trans (ih (fun a ha => p a (List.mem_cons_of_mem _ ha)))

/-- Without opening a socket, what is sent goes where it went before. -/
structure SameOrClosed (k k' : Sockets) : Prop where
  peer : k'.tcp.peer = k.tcp.peer ∨ k'.tcp.peer = none
  remote : k'.udp.remoteEndpoint = k.udp.remoteEndpoint
  tcpSent : ∃ new, k'.tcp.sent = k.tcp.sent ++ new ∧ ∀ x ∈ new, k.tcp.peer = some x.1
  udpSent : ∃ new, k'.udp.sent = k.udp.sent ++ new ∧ ∀ x ∈ new, x.1 = k.udp.remoteEndpoint

theorem SameRoute.weaken {k k' : Sockets} (h : SameRoute k k') : SameOrClosed k k' :=
  ⟨.inl h.peer, h.remote, h.tcpSent, h.udpSent⟩

theorem SameOrClosed.trans {k k' k'' : Sockets} (h : SameOrClosed k k') (h' : SameOrClosed k' k'') : SameOrClosed k k'' := by
  obtain ⟨n1, e1, m1⟩ := h.tcpSent
  obtain ⟨n1', e1', m1'⟩ := h'.tcpSent
  obtain ⟨n2, e2, m2⟩ := h.udpSent
  obtain ⟨n2', e2', m2'⟩ := h'.udpSent
  refine ⟨?_, h'.remote.trans h.remote,
    ⟨n1 ++ n1', by rw [e1', e1, List.append_assoc], fun x hx => ?_⟩,
    ⟨n2 ++ n2', by rw [e2', e2, List.append_assoc], fun x hx => ?_⟩⟩
  · rcases h'.peer with a | a
    · rw [a]; exact h.peer
    · exact .inr a
  · rcases List.mem_append.1 hx with hx | hx
    · exact m1 x hx
    · have := m1' x hx
      rcases h.peer with a | a
      · rw [← a]; exact this
      · rw [a] at this; cases this
  · rcases List.mem_append.1 hx with hx | hx
    · exact m2 x hx
    · rw [← h.remote]; exact m2' x hx

theorem Happens.sameOrClosed {k k' : Sockets} {a : NetAct} (h : Happens dns k a k')
    (no : ∀ s host port ok, a ≠ .call (.opened s host port ok)) : SameOrClosed k k' := by
  by_cases hp : a.plain
  · exact (h.route hp).weaken
  · cases h with
    | tcpOpen host port env known ok => exact absurd rfl (no _ _ _ _)
    | udpOpen host port env known ok => exact absurd rfl (no _ _ _ _)
    | tcpClose works ok t e => obtain rfl := (congrArg Prod.snd e).symm; exact ⟨.inr rfl, rfl, ⟨[], by simp [TCPSocket.close], by simp⟩, ⟨[], by simp, by simp⟩⟩
    | udpClose works ok t e => obtain rfl := (congrArg Prod.snd e).symm; exact ⟨.inl rfl, rfl, ⟨[], by simp, by simp⟩, ⟨[], by simp [UDPSocket.close], by simp⟩⟩
    | tcpSend => exact absurd trivial hp
    | udpSend => exact absurd trivial hp
    | tcpReceive => exact absurd trivial hp
    | udpReceive => exact absurd trivial hp
    | bytes => exact absurd trivial hp
    | datagram => exact absurd trivial hp

theorem AllHappen.sameOrClosed {k k' : Sockets} {as : List NetAct} (h : AllHappen dns k as k')
    (no : ∀ s host port ok, .opened s host port ok ∉ calls as) : SameOrClosed k k' := by
  induction h with
  | nil => exact (SameRoute.refl _).weaken
  | @cons k1 k2 k3 a as h t ih =>
    simp only [mem_calls, List.mem_cons, not_or] at no ih
    exact (h.sameOrClosed (fun s host port ok e => (no s host port ok).1 e.symm)).trans
      (ih (fun s host port ok => (no s host port ok).2))

theorem plain_of_calls {as : List NetAct} (h : ∀ ev ∈ calls as, (NetAct.call ev).plain) : ∀ a ∈ as, a.plain := by
  intro a ha
  cases a with
  | call ev => exact h ev (mem_calls.2 ha)
  | bytes b => trivial
  | datagram s b => trivial

theorem plain_of_none {as : List NetAct} (h : calls as = []) : ∀ a ∈ as, a.plain :=
  plain_of_calls (by rw [h]; intro ev hev; cases hev)

/-! ### Calls on the session -/

/-- Neither `open` nor `close`. -/
def Op.plain : Op → Prop
  | .open .. => False
  | .close => False
  | _ => True

theorem plain_events (op : Op) (hp : op.plain) (w : World) {evs : List Ev} (new : (op.run w).2.trace = w.trace ++ evs) :
    ∀ ev ∈ evs, (NetAct.call ev).plain := by
  have unsent : (op.run w).2 = w → ∀ ev ∈ evs, (NetAct.call ev).plain := by
    intro h
    rw [h] at new
    have : evs = [] := by simpa using new
    rw [this]
    intro ev hev
    cases hev
  have cmd : IsCommand op → ∀ ev ∈ evs, (NetAct.call ev).plain := by
    intro hc ev hev
    obtain ⟨bs, w1, w', h1, ex, hs⟩ := command_exchange op hc w
    obtain ⟨s1, _⟩ := SameButConnections.eqs hs
    obtain ⟨evs', e1, _, e2, _⟩ := ex.events
    have g : w1.trace = w.trace := by rcases h1 with rfl | rfl <;> rfl
    have : evs = evs' := by
      have := new.symm.trans (s1.trans (e1.trans (by rw [g])))
      exact List.append_cancel_left this
    subst this
    have : call ev ∈ evs.map call := List.mem_map_of_mem hev
    have := e2.subset this
    cases ev with
    | opened => simp [call] at this
    | closed => simp [call] at this
    | sent => trivial
    | received => trivial
  cases op with
  | «open» => exact hp.elim
  | close => exact hp.elim
  | getAttribute => exact cmd trivial
  | setAttribute => exact cmd trivial
  | createConnection => exact cmd trivial
  | closeConnection => exact cmd trivial
  | getConnection n => exact unsent (getConnection_world n w)
  | receiveIOPacket =>
    obtain ⟨ok, s, h, _⟩ := receiveIO_world w
    rw [h] at new
    obtain rfl := List.append_cancel_left new
    intro ev hev
    rw [List.mem_singleton.1 hev]
    trivial
  | sendIOPacket p =>
    rcases sendIO_world p w with h | ⟨bs, ok, _, h⟩
    · exact unsent h
    · rw [h] at new
      obtain rfl := List.append_cancel_left new
      intro ev hev
      rw [List.mem_singleton.1 hev]
      trivial

theorem NetStep.route {k k' : Sockets} {w w' : World} {op : Op} {r : Res Unit} {as : List NetAct}
    (h : NetStep dns k w op r as k' w') (hp : op.plain) : SameRoute k k' := by
  have t := h.trace
  have e : (op.run w).2.trace = w.trace ++ calls as := by rw [h.run]; exact t
  exact h.happen.route (plain_of_calls (plain_events op hp w e))

end Eip
