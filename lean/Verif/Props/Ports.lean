import Verif.Lemmas.Ports
import Verif.Props.CloseAgain
/-
C127: several sessions in one program.
-/
namespace Eip
open Spec

variable {ι : Type} {dns : String → String → List Endpoint}

/-- C127: what happens to the sockets of a session is only what it does itself, the bytes of its own connection and datagrams;
for its sockets it is as if there were no other session. -/
theorem c127_alone {m m' : Machine ι} {l : List (MachineAct ι)} (h : MachineRun dns m l m') (i : ι) :
    ∃ as, SeenBy i l as ∧ AllHappen dns (m.sockets i) as (m'.sockets i) := by
  induction h with
  | nil => exact ⟨[], .nil, .nil _⟩
  | @cons m1 m2 m3 a l h t ih =>
    obtain ⟨as, h1, h2⟩ := ih
    cases h with
    | call j ev allowed own port others =>
      by_cases hi : j = i
      · subst hi; exact ⟨_, .call ev h1, .cons own h2⟩
      · rw [(others i (Ne.symm hi)).1] at h2
        exact ⟨_, .otherCall j ev hi h1, h2⟩
    | bytes j b own port others =>
      by_cases hi : j = i
      · subst hi; exact ⟨_, .bytes b h1, .cons own h2⟩
      · rw [others i (Ne.symm hi)] at h2
        exact ⟨_, .otherBytes j b hi h1, h2⟩
    | datagram to sender b port taken others =>
      by_cases hi : m1.Takes to i
      · exact ⟨_, .datagram to sender b h1, .cons (taken i hi) h2⟩
      · rw [others i hi] at h2
        exact ⟨_, .otherDatagram to sender b h1, h2⟩

/-- C127: a datagram never reaches two sessions. -/
theorem c127_datagram {m m1 m2 : Machine ι} {l : List (MachineAct ι)} (fresh : Machine.Fresh m) (past : MachineRun dns m l m1)
    {to : Addressee ι} {sender : Endpoint} {b : Bytes} (arrives : MachineStep dns m1 (.datagram to sender b) m2) (i j : ι)
    (one : m2.sockets i ≠ m1.sockets i) (other : m2.sockets j ≠ m1.sockets j) : i = j := by
  have s := past.sound fresh.sound
  cases arrives with
  | datagram _ _ _ port taken others =>
    exact s.takes_unique (Classical.byContradiction fun h => one (others i h)) (Classical.byContradiction fun h => other (others j h))

/-- C127: at no time do two sessions use clashing ports. -/
theorem c127_ports {m m' : Machine ι} {l : List (MachineAct ι)} (fresh : Machine.Fresh m) (past : MachineRun dns m l m') (i j : ι)
    (ne : i ≠ j) (a b : Endpoint) (one : m'.binding i = .at a) (other : m'.binding j = .at b) :
    ¬ Clash a b ∧ a = (m.sockets i).udp.localEndpoint ∧ (m'.sockets i).udp.isOpen = true := by
  have s := past.sound fresh.sound
  refine ⟨s.apart i j a b ne one other, by rw [← past.localEndpoint]; exact (s.here i a one).1, ?_⟩
  have h := mt (s.unbound i).2 (by rw [one]; simp)
  exact (Classical.not_not.1 h).1

/-! ### Sessions on the same port -/

/-- An I/O socket that is bound keeps its port until it is closed. -/
theorem MachineRun.keeps {m m' : Machine ι} {l : List (MachineAct ι)} (h : MachineRun dns m l m') {i : ι} {ep : Endpoint}
    (hb : m.binding i = .at ep) (hl : ep = (m.sockets i).udp.localEndpoint) (hp : ep.port ≠ 0)
    (kept : ∀ ok, MachineAct.call i (.closed .io ok) ∉ l) : m'.binding i = .at ep := by
  induction h with
  | nil => exact hb
  | cons h t ih =>
    refine ih ?_ (by rw [h.localEndpoint]; exact hl) (fun ok hm => kept ok (List.mem_cons_of_mem _ hm))
    cases h with
    | call j ev allowed own port others =>
      by_cases hi : i = j
      · subst hi
        rw [port, hb]
        unfold Binding.after
        split
        · rw [← hl, if_neg hp]
        · exact absurd List.mem_cons_self (kept _)
        · rw [if_neg (by simp)]
        · rfl
      · rw [(others i hi).2, hb]
    | bytes => next h _ => rw [h, hb]
    | datagram => next h _ _ => rw [h, hb]

theorem MachineRun.split {m m'' : Machine ι} {a b : List (MachineAct ι)} (h : MachineRun dns m (a ++ b) m'') :
    ∃ m', MachineRun dns m a m' ∧ MachineRun dns m' b m'' := by
  induction a generalizing m with
  | nil => exact ⟨m, .nil _, h⟩
  | cons x xs ih =>
    cases h with
    | cons h t =>
      obtain ⟨m', h1, h2⟩ := ih t
      exact ⟨m', .cons h h1, h2⟩

/-- C127 does not hold: from when a session has opened its I/O socket until it closes it, no other session with a clashing
local endpoint can open its own, whatever the network does. -/
theorem c127_violated_socket {m m' : Machine ι} {before after : List (MachineAct ι)} {i j : ι} {host port : String}
    (h : MachineRun dns m (before ++ .call i (.opened .io host port true) :: after) m') (ne : i ≠ j)
    (clash : Clash (m.sockets i).udp.localEndpoint (m.sockets j).udp.localEndpoint)
    (kept : ∀ ok, .call i (.closed .io ok) ∉ after) (host' port' : String) : .call j (.opened .io host' port' true) ∉ after := by
  obtain ⟨m1, h1, h2⟩ := h.split
  cases h2 with
  | @cons _ m2 _ _ _ h2 h3 =>
    have hb : m2.binding i = .at (m.sockets i).udp.localEndpoint := by
      cases h2 with
      | call _ _ allowed own p others =>
        rw [p, h1.localEndpoint]
        exact if_neg clash.2.1
    have hl2 : ∀ x, (m2.sockets x).udp.localEndpoint = (m.sockets x).udp.localEndpoint := fun x =>
      (h2.localEndpoint x).trans (h1.localEndpoint x)
    intro hm
    obtain ⟨x, y, rfl⟩ := List.append_of_mem hm
    obtain ⟨m3, h4, h5⟩ := h3.split
    have hk := h4.keeps hb (hl2 i).symm clash.2.1 (fun ok hx => kept ok (List.mem_append_left _ hx))
    cases h5 with
    | cons h5 _ =>
      cases h5 with
      | call _ _ allowed own p others =>
        refine allowed i ne _ hk ?_
        rw [h4.localEndpoint, hl2]
        exact clash

theorem open_needs_port {host port ioPort : String} {w w' : World} {r : Res Unit} {evs : List Ev}
    (run : Session.open host port ioPort w = (r, w')) (trace : w'.trace = w.trace ++ evs)
    (no : .opened .io host ioPort true ∉ evs) : r = .throw systemError ∧ w'.s.sessionId = w.s.sessionId := by
  have hc := open_cases host port ioPort w
  rw [run] at hc
  have contra : ∀ more, evs ≠ .opened .tcp host port true :: .opened .io host ioPort true :: more := by
    rintro more rfl
    simp at no
  generalize hx : ((r, w') : Res Unit × World) = q at hc
  cases hc with
  | tcpFails => cases hx; exact ⟨rfl, rfl⟩
  | ioFails => cases hx; exact ⟨rfl, rfl⟩
  | sendFails => cases hx; exact absurd (List.append_cancel_left trace).symm (contra _)
  | receiveFails => cases hx; exact absurd (List.append_cancel_left trace).symm (contra _)
  | registered => cases hx; exact absurd (List.append_cancel_left trace).symm (contra _)
  | hollow => cases hx; exact absurd (List.append_cancel_left trace).symm (contra _)
  | rejected => cases hx; exact absurd (List.append_cancel_left trace).symm (contra _)
  | tcpCloseFails => cases hx; exact absurd (List.append_cancel_left trace).symm (contra _)
  | ioCloseFails => cases hx; exact absurd (List.append_cancel_left trace).symm (contra _)

theorem Spec.CallsOf.mem {i : ι} {l : List (MachineAct ι)} {evs : List Ev} (h : CallsOf i l evs) {ev : Ev} (hm : ev ∈ evs) :
    .call i ev ∈ l := by
  induction h with
  | nil => cases hm
  | own ev' t ih =>
    rcases List.mem_cons.1 hm with rfl | hm
    · exact List.mem_cons_self
    · exact List.mem_cons_of_mem _ (ih hm)
  | other => next ih => exact List.mem_cons_of_mem _ (ih hm)
  | bytes => next ih => exact List.mem_cons_of_mem _ (ih hm)
  | datagram => next ih => exact List.mem_cons_of_mem _ (ih hm)

theorem NetHistory.needs_port {k k' : Sockets} {w w' : World} {ops : List (Op × Res Unit)} (h : NetHistory dns k w ops k' w')
    {evs : List Ev} (trace : w'.trace = w.trace ++ evs) (no : ∀ host port, .opened .io host port true ∉ evs) :
    ∀ x ∈ ops, ∀ host port ioPort, x.1 = .open host port ioPort → x.2 = .throw systemError := by
  induction h generalizing evs with
  | nil => exact fun x hx => (nomatch hx)
  | arrive network h t ih => exact ih trace no
  | call h defined t ih =>
    obtain ⟨as', _, ht⟩ := t.happen
    have e : evs = calls _ ++ calls as' :=
      (List.append_cancel_left (by rw [← trace, ht, h.trace, List.append_assoc])).symm
    subst e
    intro x hx host port ioPort hop
    rcases List.mem_cons.1 hx with rfl | hx
    · dsimp only at hop
      subst hop
      exact (open_needs_port h.run h.trace (fun hm => no _ _ (List.mem_append_left _ hm))).1
    · exact ih ht (fun a b hm => no a b (List.mem_append_right _ hm)) x hx host port ioPort hop

/-- C127 does not hold: as long as one session has its I/O socket open, every `open` of another session with a clashing local
endpoint throws, whatever the devices and the network do. -/
theorem c127_violated {m m' : Machine ι} {before after : List (MachineAct ι)} {i j : ι} {host port : String}
    (h : MachineRun dns m (before ++ .call i (.opened .io host port true) :: after) m') (ne : i ≠ j)
    (clash : Clash (m.sockets i).udp.localEndpoint (m.sockets j).udp.localEndpoint)
    (kept : ∀ ok, .call i (.closed .io ok) ∉ after) {k k' : Sockets} {w w' : World} {ops : List (Op × Res Unit)} {evs : List Ev}
    (own : CallsOf j after evs) (history : NetHistory dns k w ops k' w') (trace : w'.trace = w.trace ++ evs) :
    ∀ x ∈ ops, ∀ host port ioPort, x.1 = .open host port ioPort → x.2 = .throw systemError :=
  history.needs_port trace (fun host' port' hm => c127_violated_socket h ne clash kept host' port' (own.mem hm))

/-! ### What is possible -/

/-- `f` except that `i` goes to `x`. -/
noncomputable def with' {α : Type} (f : ι → α) (i : ι) (x : α) : ι → α := fun j => open Classical in if j = i then x else f j

theorem with'_same {α : Type} (f : ι → α) (i : ι) (x : α) : with' f i x i = x := if_pos rfl

theorem with'_other {α : Type} (f : ι → α) {i j : ι} (x : α) (h : j ≠ i) : with' f i x j = f j := if_neg h

/-- What can happen to the sockets of one session can happen on the machine, if the system allows it. -/
theorem MachineStep.exists {m : Machine ι} (s : m.Sound) {i : ι} {a : NetAct} {k' : Sockets} (h : Happens dns (m.sockets i) a k')
    (allowed : ∀ host port, a = .call (.opened .io host port true) →
      ∀ j, j ≠ i → ∀ ep, m.binding j = .at ep → ¬ Clash ep (m.sockets i).udp.localEndpoint) :
    ∃ b m', MachineStep dns m b m' ∧ m'.sockets i = k' ∧ (∀ j, j ≠ i → m'.sockets j = m.sockets j ∧ m'.binding j = m.binding j) ∧
      Realises [(i, a)] [b] := by
  cases a with
  | call ev =>
    refine ⟨.call i ev, ⟨with' m.sockets i k', with' m.binding i ((m.binding i).after (m.sockets i).udp.localEndpoint ev)⟩,
      .call i ev ?_ ?_ (with'_same _ _ _) (fun j hj => ⟨with'_other _ _ hj, with'_other _ _ hj⟩), with'_same _ _ _,
      fun j hj => ⟨with'_other _ _ hj, with'_other _ _ hj⟩, .call i ev .nil⟩
    · unfold Machine.Allows
      split
      · exact allowed _ _ rfl
      · trivial
    · show Happens dns _ _ (with' m.sockets i k' i)
      rw [with'_same]
      exact h
  | bytes b =>
    refine ⟨.bytes i b, ⟨with' m.sockets i k', m.binding⟩, .bytes i b ?_ rfl (fun j hj => with'_other _ _ hj), with'_same _ _ _,
      fun j hj => ⟨with'_other _ _ hj, rfl⟩, .bytes i b .nil⟩
    show Happens dns _ _ (with' m.sockets i k' i)
    rw [with'_same]
    exact h
  | datagram sender b =>
    by_cases hb : m.binding i = .none
    · have hk : k' = m.sockets i := by
        have := (s.unbound i).1 hb
        cases h with
        | datagram =>
          have e : (m.sockets i).udp.arrive sender b = (m.sockets i).udp := by
            unfold UDPSocket.arrive
            refine if_neg fun hc => this ?_
            simpa [UDPSocket.hears] using hc
          rw [e]
      have nobody : ∀ j, ¬ m.Takes (.endpoint ⟨0, 0⟩) j := by
        intro j hj
        unfold Machine.Takes at hj
        cases hbj : m.binding j <;> rw [hbj] at hj <;> simp at hj
        exact (s.here j _ hbj).2 hj.1.symm
      exact ⟨.datagram (.endpoint ⟨0, 0⟩) sender b, m, .datagram _ _ _ rfl (fun j hj => absurd hj (nobody j)) (fun _ _ => rfl), hk.symm,
        fun _ _ => ⟨rfl, rfl⟩, .datagram i _ sender b .nil⟩
    · obtain ⟨to, ht⟩ : ∃ to, m.Takes to i := by
        cases hbi : m.binding i with
        | none => exact absurd hbi hb
        | chosen => exact ⟨.chosen i, by simp [Machine.Takes, hbi]⟩
        | «at» ep => exact ⟨.endpoint ep, by simp [Machine.Takes, hbi]⟩
      have only : ∀ j, m.Takes to j → j = i := fun j hj => s.takes_unique hj ht
      refine ⟨.datagram to sender b, ⟨with' m.sockets i k', m.binding⟩, .datagram _ _ _ rfl (fun j hj => ?_)
        (fun j hj => with'_other _ _ fun e => hj (e ▸ ht)), with'_same _ _ _,
        fun j hj => ⟨with'_other _ _ hj, rfl⟩, .datagram i _ sender b .nil⟩
      rw [only j hj]
      show Happens dns _ _ (with' m.sockets i k' i)
      rw [with'_same]
      exact h

theorem Spec.Realises.cons {x : ι × NetAct} {a : MachineAct ι} {l : List (ι × NetAct)} {as : List (MachineAct ι)}
    (h : Realises [x] [a]) (t : Realises l as) : Realises (x :: l) (a :: as) := by
  cases h with
  | call i ev => exact .call i ev t
  | bytes i b => exact .bytes i b t
  | datagram i to sender b => exact .datagram i to sender b t

theorem Machine.Sound.run_all {l : List (ι × NetAct)} {as : ι → List NetAct} (order : Interleaves as l) :
    ∀ {m : Machine ι}, m.Sound → Machine.Apart m → ∀ {k' : ι → Sockets}, (∀ i, AllHappen dns (m.sockets i) (as i) (k' i)) →
      ∃ acts m', Realises l acts ∧ MachineRun dns m acts m' ∧ ∀ i, m'.sockets i = k' i := by
  induction order with
  | nil =>
    intro m s apart k' alone
    refine ⟨[], m, .nil, .nil _, fun i => ?_⟩
    have := alone i
    generalize m.sockets i = k at this
    cases this
    rfl
  | @cons as as' l i a head others t ih =>
    intro m s apart k' alone
    have hi := alone i
    rw [head] at hi
    obtain ⟨k1, h1, h2⟩ : ∃ k1, Happens dns (m.sockets i) a k1 ∧ AllHappen dns k1 (as' i) (k' i) := by
      cases hi with
      | cons h t => exact ⟨_, h, t⟩
    obtain ⟨b, m1, hs, e1, e2, hr⟩ := MachineStep.exists s h1 (fun _ _ _ j hj ep hb c => by
      rw [(s.here j ep hb).1] at c
      exact apart j i hj c)
    have apart1 : Machine.Apart m1 := fun x y hxy => by
      rw [hs.localEndpoint, hs.localEndpoint]
      exact apart x y hxy
    obtain ⟨acts, m', r1, r2, r3⟩ := ih (hs.sound s) apart1 (k' := k') (fun j => by
      by_cases hj : j = i
      · subst hj
        rw [e1]
        exact h2
      · rw [(e2 j hj).1, ← others j hj]
        exact alone j)
    exact ⟨b :: acts, m', hr.cons r1, .cons hs r2, r3⟩

/-- C127 (partial: sessions whose local endpoints do not clash). Whatever each session and its device can do alone, they can
do together, in every order. Missing: sessions that are given the same local port. -/
theorem c127_together_partial {m : Machine ι} (fresh : Machine.Fresh m) (apart : Machine.Apart m) (as : ι → List NetAct)
    (k' : ι → Sockets) (alone : ∀ i, AllHappen dns (m.sockets i) (as i) (k' i)) (l : List (ι × NetAct)) (order : Interleaves as l) :
    ∃ acts m', Realises l acts ∧ MachineRun dns m acts m' ∧ ∀ i, m'.sockets i = k' i :=
  fresh.sound.run_all order apart alone

/-- C127 (partial: as above) for histories of calls: whatever sequences of calls, with whatever results, are possible for
each session alone are possible for all sessions together, with the socket calls in every order. -/
theorem c127_histories_partial {m : Machine ι} (fresh : Machine.Fresh m) (apart : Machine.Apart m) (w w' : ι → World)
    (ops : ι → List (Op × Res Unit)) (k' : ι → Sockets)
    (alone : ∀ i, NetHistory dns (m.sockets i) (w i) (ops i) (k' i) (w' i)) :
    ∃ as : ι → List NetAct, (∀ i, (w' i).trace = (w i).trace ++ calls (as i)) ∧
      ∀ l, Interleaves as l → ∃ acts m', Realises l acts ∧ MachineRun dns m acts m' ∧ ∀ i, m'.sockets i = k' i := by
  refine ⟨fun i => Classical.choose (alone i).happen, fun i => (Classical.choose_spec (alone i).happen).2, fun l order => ?_⟩
  exact c127_together_partial fresh apart _ k' (fun i => (Classical.choose_spec (alone i).happen).1) l order

/-! ### How two sessions get in each other's way -/

theorem Spec.Realises.own {i : ι} {a : NetAct} {b : MachineAct ι} (h : Realises [(i, a)] [b]) {j : ι} (ne : j ≠ i) (ev : Ev) :
    b ≠ .call j ev := by
  cases h with
  | call i ev => simpa using fun e => absurd e.symm ne
  | bytes i b => simp
  | datagram i to sender b => simp

theorem Spec.Realises.seen {i : ι} {a : NetAct} {b : MachineAct ι} (h : Realises [(i, a)] [b]) {l : List (MachineAct ι)}
    {as : List NetAct} (t : SeenBy i l as) : SeenBy i (b :: l) (a :: as) := by
  cases h with
  | call i ev => exact .call ev t
  | bytes i b => exact .bytes b t
  | datagram i to sender b => exact .datagram to sender b t

/-- One session acts, the others rest. -/
theorem Machine.Sound.run_one {i : ι} {k k' : Sockets} {as : List NetAct} (h : AllHappen dns k as k') :
    ∀ {m : Machine ι}, m.Sound → m.sockets i = k →
      (∀ host port, .call (.opened .io host port true) ∈ as →
        ∀ j, j ≠ i → ∀ ep, m.binding j = .at ep → ¬ Clash ep (m.sockets i).udp.localEndpoint) →
      ∃ l m', MachineRun dns m l m' ∧ SeenBy i l as ∧ m'.sockets i = k' ∧
        ∀ j, j ≠ i → m'.sockets j = m.sockets j ∧ m'.binding j = m.binding j ∧ ∀ ev, .call j ev ∉ l := by
  induction h with
  | nil k =>
    intro m s e _
    exact ⟨[], m, .nil _, .nil, e, fun _ _ => ⟨rfl, rfl, by simp⟩⟩
  | cons h t ih =>
    intro m s e allowed
    subst e
    obtain ⟨b, m1, hs, e1, e2, hr⟩ := MachineStep.exists s h (fun host port ha => allowed host port (by rw [ha]; exact List.mem_cons_self))
    obtain ⟨l, m', r1, r2, r3, r4⟩ := ih (hs.sound s) e1 (fun host port hm j hj ep hb => by
      rw [(e2 j hj).2] at hb
      rw [hs.localEndpoint]
      exact allowed host port (List.mem_cons_of_mem _ hm) j hj ep hb)
    exact ⟨b :: l, m', .cons hs r1, hr.seen r2, r3, fun j hj => ⟨(r4 j hj).1.trans (e2 j hj).1, (r4 j hj).2.1.trans (e2 j hj).2, fun ev hm => by
      rcases List.mem_cons.1 hm with h | h
      · exact hr.own hj ev h.symm
      · exact (r4 j hj).2.2 ev h⟩⟩

theorem Spec.SeenBy.mem {i : ι} {l : List (MachineAct ι)} {as : List NetAct} (h : SeenBy i l as) (ev : Ev) :
    .call i ev ∈ l ↔ ev ∈ calls as := by
  induction h with
  | nil => simp [calls_nil]
  | call e t ih => rw [calls_call, List.mem_cons, List.mem_cons, ih]; simp
  | bytes b t ih => rw [calls_bytes, List.mem_cons, ih]; simp
  | datagram to sender b t ih => rw [calls_datagram, List.mem_cons, ih]; simp
  | otherCall j e ne t ih => rw [List.mem_cons, ih]; simp [Ne.symm ne]
  | otherBytes j b ne t ih => rw [List.mem_cons, ih]; simp
  | otherDatagram to sender b t ih => rw [List.mem_cons, ih]; simp

theorem MachineRun.append {m m' m'' : Machine ι} {a b : List (MachineAct ι)} (h : MachineRun dns m a m')
    (h' : MachineRun dns m' b m'') : MachineRun dns m (a ++ b) m'' := by
  induction h with
  | nil => exact h'
  | cons h t ih => exact .cons h (ih h')

/-- C127 does not hold, also after the other session is closed. On a network where everything works, two sessions that are
given clashing local endpoints are opened: the second `open` throws, as every `open` would. Then the first session is closed: the second one still
cannot be opened, until it is closed although it never was open. -/
theorem c127_violated_stuck {m : Machine ι} (fresh : Machine.Fresh m) {i j : ι} (ne : i ≠ j)
    (clash : Clash (m.sockets i).udp.localEndpoint (m.sockets j).udp.localEndpoint) (s s' : Session) (unregistered : s.sessionId = 0)
    (host port ioPort : String) (te ue : OpenEnv) (names : te.resolved = dns host port ∧ ue.resolved = dns host ioPort)
    (tw : tcpWorks te) (uw : udpWorks ue) (registered : Bytes) (handle : UInt32) (registers : Registers 0 registered handle)
    (fits : registered.length ≤ 4096) :
    ∃ m1 m2 m3 w w1 v v1 u u1, w.s = s ∧ MachineCall dns m i w (.open host port ioPort) (.ok ()) m1 w1 ∧
      v.s = s' ∧ MachineCall dns m1 j v (.open host port ioPort) (.throw systemError) m2 v1 ∧
      (∀ a b c r m2' v v1', MachineCall dns m1 j v (.open a b c) r m2' v1' → r = .throw systemError) ∧
      u.s = w1.s ∧ MachineCall dns m2 i u .close (.ok ()) m3 u1 ∧
      ∀ ops k x, NetHistory dns (m3.sockets j) v1 ops k x → (∀ o ∈ ops, o.1 ≠ .close) →
        ∀ o ∈ ops, (∃ a b c, o.1 = .open a b c) → o.2 = .throw systemError := by
  have sound := fresh.sound
  have closedAt : ∀ x, (m.sockets x).udp.isOpen = false := fun x => by
    obtain ⟨⟨_, here, e⟩, _⟩ := fresh x
    rw [e]; rfl
  obtain ⟨env, as, k1, w1, a1, _, ⟨ep, _, hpeer⟩, a2, _, _, _, a3⟩ := c109_opens_partial (m.sockets i) (closedAt i) s unregistered host port ioPort
    te ue names tw uw registered handle registers fits
  obtain ⟨l1, m1, b1, b2, b3, b4⟩ := sound.run_one a1.happen rfl (fun _ _ _ x _ ep hb => by rw [(fresh x).2] at hb; cases hb)
  obtain ⟨env', as', k2, v1, c1, c2, _, _, c3⟩ := c109_violated_port (dns := dns) (m1.sockets j) (by rw [(b4 j (Ne.symm ne)).1]; exact closedAt j) s' host port ioPort
    te { ue with portFree := false } names tw uw.1 uw.2.1 rfl
  obtain ⟨l2, m2, d1, d2, d3, d4⟩ := (b1.sound sound).run_one c1.happen rfl (fun a b hm => by
    have := mem_calls.2 hm
    rw [c3] at this
    simp at this)
  have hi : m2.sockets i = k1 := (d4 i ne).1.trans b3
  obtain ⟨u, as'', k3, u1, e1, e2⟩ := (c122_connected_partial (dns := dns) (m2.sockets i) w1.s).2 ⟨by rw [hi]; exact a2, by rw [hi, hpeer]; simp⟩
  obtain ⟨l3, m3, f1, f2, f3, f4⟩ := (d1.sound (b1.sound sound)).run_one e2.happen rfl (fun a b hm => by
    exfalso
    have hm := mem_calls.2 hm
    have hc := close_cases u
    have run : Session.close u = (.ok (), u1) := e2.run
    have ht := e2.trace
    rw [run] at hc
    generalize hx : ((Res.ok (), u1) : Res Unit × World) = q at hc
    cases hc with
    | closed =>
      cases hx
      rw [← List.append_cancel_left ht] at hm
      simp at hm
    | _ => cases hx)
  refine ⟨m1, m2, m3, ⟨s, env, 0, []⟩, w1, ⟨s', env', 0, []⟩, v1, u, u1, rfl, ⟨as, l1, by rw [b3]; exact a1, b1, b2, fun x hx => (b4 x hx).2.2⟩,
    rfl, ⟨as', l2, by rw [d3]; exact c1, d1, d2, fun x hx => (d4 x hx).2.2⟩, ?_, e1,
    ⟨as'', l3, by rw [f3]; exact e2, f1, f2, fun x hx => (f4 x hx).2.2⟩, fun ops k x h no o ho hop => ?_⟩
  · rintro a b c r m2' v v1' ⟨as2, l, hn, hl, hs, rest⟩
    have hm : .call i (.opened .io host ioPort true) ∈ l1 := (b2.mem _).2 (by rw [a3]; simp [openEvents])
    obtain ⟨x, y, rfl⟩ := List.append_of_mem hm
    have all := b1.append hl
    rw [List.append_assoc, List.cons_append] at all
    refine (open_needs_port hn.run hn.trace fun hp => ?_).1
    refine c127_violated_socket all ne clash (fun ok hc => ?_) a c (List.mem_append_right _ ((hs.mem _).2 hp))
    rcases List.mem_append.1 hc with hc | hc
    · have := (b2.mem (.closed .io ok)).1 (List.mem_append_right _ (List.mem_cons_of_mem _ hc))
      rw [a3] at this
      simp [openEvents] at this
    · exact rest i ne _ hc
  have hj : (m3.sockets j).udp.isOpen = true := by rw [(f4 j (Ne.symm ne)).1, d3]; exact c2
  exact (c109_violated h hj no).2.2 o ho hop

/-! ### Two sessions, for 10.0.0.1 and another device -/

/-- Two sessions that are both given port 2222, as in the documentation of the protocol. -/
def sharedPort : Machine Bool := ⟨fun _ => exampleSockets, fun _ => .none⟩

/-- Two sessions with ports of their own. -/
def ownPorts : Machine Bool := ⟨fun i => ⟨TCPSocket.new, UDPSocket.new ⟨0, if i then 2222 else 2223⟩⟩, fun _ => .none⟩

example : Machine.Fresh sharedPort ∧ Clash (sharedPort.sockets true).udp.localEndpoint (sharedPort.sockets false).udp.localEndpoint :=
  ⟨fun _ => ⟨⟨rfl, _, rfl⟩, rfl⟩, rfl, by decide, .inl rfl⟩

example (s s' : Session) (h : s.sessionId = 0) : ∃ m1 m2 w w1 v v1, w.s = s ∧
    MachineCall exampleDns sharedPort true w (.open "device" "44818" "2222") (.ok ()) m1 w1 ∧ v.s = s' ∧
    MachineCall exampleDns m1 false v (.open "device" "44818" "2222") (.throw systemError) m2 v1 := by
  obtain ⟨m1, m2, _, w, w1, v, v1, _, _, a, b, c, d, _⟩ := c127_violated_stuck (dns := exampleDns) (m := sharedPort)
    (fun _ => ⟨⟨rfl, _, rfl⟩, rfl⟩) (i := true) (j := false) (by simp) ⟨rfl, by decide, .inl rfl⟩ s s' h "device" "44818" "2222"
    (exampleOpen 44818) (exampleOpen 2222) (by decide) ⟨rfl, _, List.mem_cons_self, rfl⟩ (by simp [udpWorks, exampleOpen])
    exampleRegistration 7 exampleRegistration_registers (by decide)
  exact ⟨m1, m2, w, w1, v, v1, a, b, c, d⟩

example : Machine.Fresh ownPorts ∧ Machine.Apart ownPorts := by
  refine ⟨fun _ => ⟨⟨rfl, _, rfl⟩, rfl⟩, fun i j ne c => ?_⟩
  have := c.1
  cases i <;> cases j <;> simp [ownPorts, UDPSocket.new] at this ne

/-- An order in which two sessions can act. -/
example (a b c : NetAct) : Interleaves (fun i : Bool => if i then [a, c] else [b]) [(true, a), (false, b), (true, c)] :=
  .cons (as' := fun i => if i then [c] else [b]) true a rfl (by simp)
    (.cons (as' := fun i => if i then [c] else []) false b rfl (by simp)
      (.cons (as' := fun _ => []) true c rfl (by simp) .nil))

end Eip
