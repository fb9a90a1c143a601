import Verif.Spec.Ports
import Verif.Lemmas.Wired
/-
What holds of the table of ports.
-/
namespace Eip
open Spec

variable {ι : Type} {dns : String → String → List Endpoint}

/-- The socket gets datagrams. -/
def UDPSocket.hears (u : UDPSocket) : Prop := u.isOpen = true ∧ u.bound = true

theorem Happens.localEndpoint {k k' : Sockets} {a : NetAct} (h : Happens dns k a k') :
    k'.udp.localEndpoint = k.udp.localEndpoint := by
  cases h with
  | udpOpen _ _ env _ ok u e =>
    replace e := congrArg Prod.snd e
    unfold UDPSocket.open at e
    split at e
    · cases e; rfl
    · dsimp only at e
      split at e
      · cases e; rfl
      · split at e
        · cases e; rfl
        · split at e <;> cases e <;> rfl
  | udpClose works ok u e => exact congrArg (·.2.localEndpoint) e.symm
  | udpSend b accepts n ok u e =>
    replace e := congrArg Prod.snd e
    unfold UDPSocket.send at e
    split at e <;> cases e <;> rfl
  | udpReceive b ok u e =>
    replace e := congrArg Prod.snd e
    unfold UDPSocket.receive at e
    split at e
    · cases e; rfl
    · split at e <;> cases e <;> rfl
  | datagram s b =>
    show (k.udp.arrive s b).localEndpoint = _
    unfold UDPSocket.arrive
    split <;> rfl
  | _ => rfl

/-- The table says `none` exactly for the sockets that get no datagrams. -/
theorem Happens.hears {k k' : Sockets} {ev : Ev} {b : Binding} (here : Endpoint) (h : Happens dns k (.call ev) k')
    (hb : b = .none ↔ ¬ k.udp.hears) : b.after here ev = .none ↔ ¬ k'.udp.hears := by
  cases h with
  | tcpOpen _ _ _ _ ok => exact hb
  | tcpClose => exact hb
  | tcpSend => exact hb
  | tcpReceive => exact hb
  | udpOpen _ _ env _ ok u e =>
    cases ok with
    | true =>
      obtain ⟨_, _, ⟨hr, _⟩ | ⟨_, _, _, _, ⟨hr, _⟩ | ⟨hr, _⟩ | ⟨_, _, _, _, h1, h2⟩⟩⟩ := UDPSocket.open_cases e
      · cases hr
      · cases hr
      · cases hr
      · refine ⟨fun h => ?_, fun h => absurd ⟨h1, h2⟩ h⟩
        simp only [Binding.after] at h
        split at h <;> cases h
    | false =>
      have key : u.hears ↔ k.udp.hears := by
        unfold UDPSocket.open at e
        split at e
        · cases e; rfl
        · dsimp only at e
          split at e
          · cases e; rfl
          · next closed =>
            split at e
            · cases e; rfl
            · split at e
              · cases e
                exact ⟨fun h => (nomatch h.2), fun h => absurd h.1 closed⟩
              · cases e
      show b = .none ↔ ¬ u.hears
      rw [key]
      exact hb
  | udpClose works ok u e =>
    replace e := congrArg Prod.snd e
    cases e
    exact ⟨fun _ h => (nomatch h.1), fun _ => rfl⟩
  | udpSend bs accepts n ok u e =>
    cases ok with
    | true =>
      unfold UDPSocket.send at e
      split at e
      · cases e
      · next h =>
        cases e
        simp only [Bool.or_eq_true, not_or] at h
        refine ⟨fun h => ?_, fun hn => absurd ⟨by simpa using h.1, rfl⟩ hn⟩
        simp only [Binding.after] at h
        split at h
        · cases h
        · next hne => exact absurd h hne
    | false =>
      unfold UDPSocket.send at e
      split at e
      · cases e; exact hb
      · cases e
  | udpReceive bs ok u e =>
    have key : u.hears ↔ k.udp.hears := by
      replace e := congrArg Prod.snd e
      unfold UDPSocket.receive at e
      split at e
      · cases e; rfl
      · split at e <;> cases e <;> rfl
    show b = .none ↔ ¬ u.hears
    rw [key]
    exact hb

theorem Clash.symm {a b : Endpoint} (h : Clash a b) : Clash b a := by
  obtain ⟨h1, h2, h3⟩ := h
  exact ⟨h1.symm, h1 ▸ h2, by rcases h3 with h | h | h <;> simp [h]⟩

/-- What holds of the machine at all times. -/
structure Machine.Sound (m : Machine ι) : Prop where
  unbound : ∀ i, m.binding i = .none ↔ ¬ (m.sockets i).udp.hears
  here : ∀ i ep, m.binding i = .at ep → ep = (m.sockets i).udp.localEndpoint ∧ ep.port ≠ 0
  apart : ∀ i j ep ep', i ≠ j → m.binding i = .at ep → m.binding j = .at ep' → ¬ Clash ep ep'

theorem Spec.Machine.Fresh.sound {m : Machine ι} (h : Machine.Fresh m) : m.Sound where
  unbound i := by
    obtain ⟨⟨_, here, e⟩, hb⟩ := h i
    rw [hb, e]
    exact ⟨fun _ h => (nomatch h.1), fun _ => rfl⟩
  here i ep e := by rw [(h i).2] at e; cases e
  apart i j ep ep' _ e := by rw [(h i).2] at e; cases e

theorem Binding.after_at {b : Binding} {here ep : Endpoint} {ev : Ev} (h : b.after here ev = .at ep) :
    b = .at ep ∨ (ep = here ∧ here.port ≠ 0 ∧ ∃ host port, ev = .opened .io host port true) := by
  unfold Binding.after at h
  split at h
  · split at h
    · cases h
    · next hn => cases h; exact .inr ⟨rfl, hn, _, _, rfl⟩
  · cases h
  · split at h
    · cases h
    · exact .inl h
  · exact .inl h

theorem MachineStep.localEndpoint {m m' : Machine ι} {a : MachineAct ι} (h : MachineStep dns m a m') (i : ι) :
    (m'.sockets i).udp.localEndpoint = (m.sockets i).udp.localEndpoint := by
  cases h with
  | call j ev allowed own port others =>
    by_cases hi : i = j
    · subst hi; exact own.localEndpoint
    · rw [(others i hi).1]
  | bytes j b own port others =>
    by_cases hi : i = j
    · subst hi; exact own.localEndpoint
    · rw [others i hi]
  | datagram to sender b port taken others =>
    by_cases hi : m.Takes to i
    · exact (taken i hi).localEndpoint
    · rw [others i hi]

theorem Happens.arrival_hears {k k' : Sockets} {a : NetAct} (h : Happens dns k a k') (no : calls [a] = []) :
    k'.udp.hears ↔ k.udp.hears := by
  cases h with
  | bytes => rfl
  | datagram s b =>
    show (k.udp.arrive s b).hears ↔ _
    unfold UDPSocket.arrive
    split <;> rfl
  | _ => cases no

theorem MachineStep.sound {m m' : Machine ι} {a : MachineAct ι} (h : MachineStep dns m a m') (s : m.Sound) : m'.Sound := by
  have hl := h.localEndpoint
  cases h with
  | call i ev allowed own port others =>
    have hat : ∀ j ep, m'.binding j = .at ep → m.binding j = .at ep ∨
        (j = i ∧ ep = (m.sockets i).udp.localEndpoint ∧ ep.port ≠ 0 ∧ ∃ host port, ev = .opened .io host port true) := by
      intro j ep e
      by_cases hj : j = i
      · subst hj
        rw [port] at e
        rcases Binding.after_at e with h | ⟨h1, h2, h3⟩
        · exact .inl h
        · exact .inr ⟨rfl, h1, h1 ▸ h2, h3⟩
      · rw [(others j hj).2] at e
        exact .inl e
    refine ⟨fun j => ?_, fun j ep e => ?_, fun j l ep ep' ne e e' => ?_⟩
    · by_cases hj : j = i
      · subst hj
        rw [port]
        exact own.hears _ (s.unbound j)
      · rw [(others j hj).1, (others j hj).2]
        exact s.unbound j
    · rw [hl]
      rcases hat j ep e with h | ⟨rfl, h1, h2, _⟩
      · exact s.here j ep h
      · exact ⟨h1, h2⟩
    · rcases hat j ep e with h | ⟨rfl, h1, _, host, p, rfl⟩
      · rcases hat l ep' e' with h' | ⟨rfl, h1, _, host, p, rfl⟩
        · exact s.apart j l ep ep' ne h h'
        · subst h1
          exact allowed j ne ep h
      · rcases hat l ep' e' with h' | ⟨rfl, _⟩
        · subst h1
          exact fun c => allowed l (Ne.symm ne) ep' h' c.symm
        · exact absurd rfl ne
  | bytes i b own port others =>
    refine ⟨fun j => ?_, fun j ep e => ?_, fun j l ep ep' ne e e' => ?_⟩
    · rw [port]
      by_cases hj : j = i
      · subst hj
        rw [own.arrival_hears rfl]
        exact s.unbound j
      · rw [others j hj]
        exact s.unbound j
    · rw [hl]; rw [port] at e; exact s.here j ep e
    · rw [port] at e e'; exact s.apart j l ep ep' ne e e'
  | datagram to sender b port taken others =>
    refine ⟨fun j => ?_, fun j ep e => ?_, fun j l ep ep' ne e e' => ?_⟩
    · rw [port]
      by_cases hj : m.Takes to j
      · rw [(taken j hj).arrival_hears rfl]
        exact s.unbound j
      · rw [others j hj]
        exact s.unbound j
    · rw [hl]; rw [port] at e; exact s.here j ep e
    · rw [port] at e e'; exact s.apart j l ep ep' ne e e'

theorem MachineRun.sound {m m' : Machine ι} {as : List (MachineAct ι)} (h : MachineRun dns m as m') (s : m.Sound) :
    m'.Sound := by
  induction h with
  | nil => exact s
  | cons h t ih => exact ih (h.sound s)

theorem MachineRun.localEndpoint {m m' : Machine ι} {as : List (MachineAct ι)} (h : MachineRun dns m as m') (i : ι) :
    (m'.sockets i).udp.localEndpoint = (m.sockets i).udp.localEndpoint := by
  induction h with
  | nil => rfl
  | cons h t ih => exact ih.trans (h.localEndpoint i)

/-- At most one session takes a datagram. -/
theorem Machine.Sound.takes_unique {m : Machine ι} (s : m.Sound) {to : Addressee ι} {i j : ι} (hi : m.Takes to i)
    (hj : m.Takes to j) : i = j := by
  unfold Machine.Takes at hi hj
  cases to with
  | chosen l =>
    cases hbi : m.binding i <;> rw [hbi] at hi <;> simp at hi
    cases hbj : m.binding j <;> rw [hbj] at hj <;> simp at hj
    exact hi.symm.trans hj
  | endpoint ep =>
    cases hbi : m.binding i <;> rw [hbi] at hi <;> simp at hi
    cases hbj : m.binding j <;> rw [hbj] at hj <;> simp at hj
    next a b =>
    apply Classical.byContradiction
    intro ne
    refine s.apart i j a b ne hbi hbj ⟨hi.1.symm.trans hj.1, (s.here i a hbi).2, ?_⟩
    rcases hi.2 with h | h
    · exact .inr (.inl h)
    · rcases hj.2 with h' | h'
      · exact .inr (.inr h')
      · exact .inl (h.symm.trans h')

end Eip
