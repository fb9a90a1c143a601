import Verif.Lemmas.Possible
import Verif.Lemmas.Strategy
import Verif.Props.Route
import Verif.Props.Commands
import Verif.Props.Log
/-
C114: what can happen to a session over the sockets of the library, and C31, C34, C40 and C97 on these sockets.
-/
namespace Eip
open Spec

variable {dns : String → String → List Endpoint}

theorem Spec.Sockets.Fresh.line {k : Sockets} (h : Sockets.Fresh k) : lineOf k = Line.down ∧ Quiet k := by
  obtain ⟨h1, here, h2⟩ := h
  constructor
  · simp [lineOf, h1, h2, TCPSocket.new, UDPSocket.new, Line.down]
  · simp [Quiet, h1, h2, TCPSocket.new, UDPSocket.new]

theorem Spec.CanAll.append {l l' l'' : Line} {a b : List Ev} (h : CanAll dns l a l') (t : CanAll dns l' b l'') :
    CanAll dns l (a ++ b) l'' := by
  induction h with
  | nil => exact t
  | cons h _ ih => exact .cons h (ih t)

theorem Spec.CanAll.split {l l'' : Line} {a b : List Ev} (h : CanAll dns l (a ++ b) l'') :
    ∃ l', CanAll dns l a l' ∧ CanAll dns l' b l'' := by
  induction a generalizing l with
  | nil => exact ⟨l, .nil _, h⟩
  | cons e a ih =>
    cases h with
    | cons h t =>
      obtain ⟨l', h1, h2⟩ := ih t
      exact ⟨l', .cons h h1, h2⟩

/-- C114. What the socket calls of a session over new sockets of the library come to obeys the rules of `Spec.Can`, and
whatever obeys them does come about on some network. -/
theorem c114_exactly {k : Sockets} (fresh : Sockets.Fresh k) (evs : List Ev) :
    (∃ as k', AllHappen dns k as k' ∧ calls as = evs) ↔ ∃ l, CanAll dns Line.down evs l := by
  obtain ⟨hl, hq⟩ := fresh.line
  constructor
  · rintro ⟨as, k', h, rfl⟩
    exact ⟨_, hl ▸ (h.can hq.settled).1⟩
  · rintro ⟨l, h⟩
    rw [← hl] at h
    obtain ⟨as, k', h1, h2, _⟩ := h.happens hq
    exact ⟨as, k', h1, h2⟩

theorem outcomes_effect (ops : List Op) (w : World) : Effect w (outcomes ops w).2 := by
  induction ops generalizing w with
  | nil => exact Effect.refl w
  | cons op ops ih =>
    have h := op_effect op w
    simp only [outcomes]
    rcases e : op.run w with ⟨r, w1⟩
    rw [e] at h
    cases r with
    | ub u => exact h
    | ok x => exact h.trans (ih w1)
    | throw x => exact h.trans (ih w1)

theorem NetHistory.outcomes {k k' : Sockets} {w w' : World} {l : List (Op × Res Unit)} (h : NetHistory dns k w l k' w') :
    outcomes (l.map (·.1)) w = (l.map (·.2), w') := by
  induction h with
  | nil => rfl
  | arrive _ _ _ ih => exact ih
  | @call k1 k2 k3 w1 w2 w3 op r as ops h defined t ih =>
    simp only [List.map_cons, Spec.outcomes, h.run]
    cases r with
    | ub u =>
      have := defined ⟨u, rfl⟩
      subst this
      simp only [List.map_nil, Spec.outcomes, Prod.mk.injEq] at ih
      simp [ih.2]
    | ok x => simp [ih]
    | throw x => simp [ih]

/-- Calls whose socket calls obey the rules are calls over the library's sockets. -/
theorem history_of_can {k : Sockets} (q : Quiet k) (l : List (Op × Res Unit)) {w w' : World}
    (run : outcomes (l.map (·.1)) w = (l.map (·.2), w')) {evs : List Ev} {line : Line} (trace : w'.trace = w.trace ++ evs)
    (can : CanAll dns (lineOf k) evs line) : ∃ k', NetHistory dns k w l k' w' ∧ lineOf k' = line := by
  induction l generalizing k w evs with
  | nil =>
    cases run
    obtain rfl : evs = [] := by simpa using trace
    cases can
    exact ⟨k, .nil _ _, rfl⟩
  | cons x l ih =>
    obtain ⟨op, r⟩ := x
    obtain ⟨evs1, ht1, _⟩ := (op_effect op w).events
    rcases e : op.run w with ⟨r1, w1⟩
    rw [e] at ht1
    have ht1 : w1.trace = w.trace ++ evs1 := ht1
    simp only [List.map_cons, outcomes, e] at run
    have go : ∀ (w2 : World) (rest : List (Res Unit)), Effect w1 w2 → (∃ evs2, evs = evs1 ++ evs2 ∧ w2.trace = w1.trace ++ evs2) ∨
        w'.trace ≠ w2.trace := by
      intro w2 _ h
      obtain ⟨evs2, h2, _⟩ := h.events
      by_cases hh : w'.trace = w2.trace
      · left
        refine ⟨evs2, ?_, h2⟩
        rw [hh, h2, ht1, List.append_assoc] at trace
        exact (List.append_cancel_left trace).symm
      · exact .inr hh
    have step : ∀ {evs2 : List Ev}, evs = evs1 ++ evs2 → ∃ as k1 l1, NetStep dns k w op r1 as k1 w1 ∧ Quiet k1 ∧ lineOf k1 = l1 ∧
        CanAll dns l1 evs2 line := by
      rintro evs2 rfl
      obtain ⟨l1, c1, c2⟩ := can.split
      obtain ⟨as, k1, h1, h2, h3, h4⟩ := c1.happens q
      exact ⟨as, k1, l1, ⟨e, by rw [ht1, h2], h1⟩, h4, h3, c2⟩
    have rest : (∀ u, r1 ≠ .ub u) → Prod.map (r1 :: ·) id (outcomes (l.map (·.1)) w1) = (r :: l.map (·.2), w') →
        ∃ k', NetHistory dns k w ((op, r) :: l) k' w' ∧ lineOf k' = line := by
      intro nu hrun
      have e2 := congrArg Prod.snd hrun
      have e1 := congrArg Prod.fst hrun
      simp only [Prod.map_snd, Prod.map_fst, id, List.cons.injEq] at e1 e2
      obtain ⟨evs2, he, ht2⟩ := (go _ [] (outcomes_effect (l.map (·.1)) w1)).resolve_right (by rw [e2]; simp)
      obtain ⟨as, k1, l1, hs, hq, hl, hc⟩ := step he
      subst hl
      rw [e2] at ht2
      obtain ⟨k', hh, hk⟩ := ih hq (Prod.ext e1.2 e2) ht2 hc
      obtain ⟨rfl, _⟩ := e1
      exact ⟨k', .call hs (fun ⟨u, hu⟩ => absurd hu (nu u)) hh, hk⟩
    cases r1 with
    | ub u =>
      simp only [Prod.mk.injEq, List.cons.injEq] at run
      obtain ⟨⟨rfl, hn⟩, rfl⟩ := run
      have hl : l = [] := List.map_eq_nil_iff.1 hn.symm
      subst hl
      have he : evs = evs1 ++ [] := by
        rw [ht1] at trace
        rw [List.append_nil]
        exact (List.append_cancel_left trace).symm
      obtain ⟨as, k1, l1, hs, hq, hl, hc⟩ := step he
      cases hc
      exact ⟨k1, .call hs (fun _ => rfl) (.nil _ _), hl⟩
    | ok x => exact rest (by simp) run
    | throw x => exact rest (by simp) run

/-- C114 for a session: these calls with these outcomes, ending in this world, are a history over new sockets of the library
exactly if the session behaves that way with the answers it got and those answers obey the rules of `Spec.Can`. -/
theorem c114_histories {k : Sockets} (fresh : Sockets.Fresh k) (l : List (Op × Res Unit)) (w w' : World) :
    (∃ k', NetHistory dns k w l k' w') ↔
      outcomes (l.map (·.1)) w = (l.map (·.2), w') ∧
        ∃ evs line, w'.trace = w.trace ++ evs ∧ CanAll dns Line.down evs line := by
  obtain ⟨hl, hq⟩ := fresh.line
  constructor
  · rintro ⟨k', h⟩
    obtain ⟨as, h1, h2⟩ := h.happen
    exact ⟨h.outcomes, _, _, h2, hl ▸ (h1.can hq.settled).1⟩
  · rintro ⟨h, evs, line, h1, h2⟩
    rw [← hl] at h2
    obtain ⟨k', h3, _⟩ := history_of_can hq l h h1 h2
    exact ⟨k', h3⟩

/-! ### What follows for a session that is opened and used -/

/-- Answers without failures: these bytes are received at the fourth and at the sixth call. -/
def twoReplies (registered reply : Bytes) : Nat → Answer :=
  fun n => ⟨false, if n = 3 then registered else reply, 0⟩

/-- `open` with a device that registers the session. -/
theorem open_registers {w : World} {host port ioPort : String} {handle : UInt32}
    (works : OpenWorks w) (registers : Registers w.s.sessionId (delivered w.env (w.clock + 3)) handle) :
    Session.open host port ioPort w = (.ok (), { w.replied host port ioPort [] with
      s := { (w.replied host port ioPort []).s with sessionId := handle } }) := by
  have hc := open_cases host port ioPort w
  generalize Session.open host port ioPort w = r at hc ⊢
  cases hc with
  | tcpFails h => rw [works.1] at h; cases h
  | ioFails _ h => rw [works.2.1] at h; cases h
  | sendFails _ _ h => rw [works.2.2.1] at h; cases h
  | receiveFails _ _ _ h => rw [works.2.2.2] at h; cases h
  | registered handle' h hr =>
    obtain ⟨p, a, _⟩ := registers
    obtain ⟨p', a', _⟩ := hr
    rw [(Packet.unique a a').2.1]
  | hollow h hr =>
    obtain ⟨p, a, b, c, _⟩ := registers
    obtain ⟨handle', a', _⟩ := hr
    exact absurd (Packet.unique a a').2.2 c
  | rejected _ _ _ h => exact absurd ⟨_, registers⟩ h
  | tcpCloseFails _ _ h => exact absurd ⟨_, registers⟩ h
  | ioCloseFails _ _ _ h => exact absurd ⟨_, registers⟩ h

/-- What a command does on the sockets if none fails. -/
theorem command_events {op : Op} (cmd : IsCommand op) {w : World} (works : Works w.env w.clock) :
    (op.run w).2.trace = w.trace ∨ ∃ bs, (op.run w).2.trace =
      w.trace ++ [.sent .tcp bs true, .received .tcp (delivered w.env (w.clock + 1)) true] := by
  have rr : ∀ {w1 w' : World} {bs : Bytes} {r : Res RRDataResponse}, w1 = w ∨ w1 = w.bumped → RRCases w1 bs (r, w') →
      w'.trace = w.trace ++ [.sent .tcp bs true, .received .tcp (delivered w.env (w.clock + 1)) true] := by
    intro w1 w' bs r h1 h
    have he : w1.env = w.env ∧ w1.clock = w.clock ∧ w1.trace = w.trace := by rcases h1 with rfl | rfl <;> exact ⟨rfl, rfl, rfl⟩
    obtain ⟨e1, e2, e3⟩ := he
    cases h with
    | sendFails h => rw [e1, e2, works.1] at h; cases h
    | receiveFails _ h => rw [e1, e2, works.2] at h; cases h
    | replied h r hr =>
      show w1.trace ++ [_, .received .tcp (delivered w1.env (w1.clock + 1)) true] = _
      rw [e1, e2, e3]
  cases command_run op cmd w with
  | unsent r hr h => left; rw [h]
  | thrown w1 bs e w' h1 r h => right; rw [h]; exact ⟨bs, rr h1 r⟩
  | crashed w1 bs e w' h1 r h => right; rw [h]; exact ⟨bs, rr h1 r⟩
  | answered w1 bs resp r w' w'' h1 r h hs => right; rw [h]; exact ⟨bs, (SameButConnections.eqs hs).1.trans (rr h1 r)⟩

/-- C114: on the sockets of the library a device can answer the first command after `open` with any one to 4096 bytes: the
session is open with the handle the device gave, the exchange of the command works, and what it receives are these bytes. So
everything shown of commands for such a reply applies. -/
theorem c114_any_reply {k : Sockets} (fresh : Sockets.Fresh k) (s : Session) (unregistered : s.sessionId = 0)
    (host port ioPort : String) (known : dns host port ≠ [] ∧ dns host ioPort ≠ []) (registered : Bytes) (handle : UInt32)
    (registers : Registers 0 registered handle) (fits : registered.length ≤ 4096) (op : Op) (cmd : IsCommand op) (reply : Bytes)
    (some : reply ≠ []) (fits' : reply.length ≤ 4096) :
    ∃ w k' w1, w.s = s ∧ Session.open host port ioPort w = (.ok (), w1) ∧ w1.s.sessionId = handle ∧
      w1.s.connections = s.connections ∧ Works w1.env w1.clock ∧ delivered w1.env (w1.clock + 1) = reply ∧
      NetHistory dns k w [(.open host port ioPort, .ok ()), (op, (op.run w1).1)] k' (op.run w1).2 := by
  have d3 : delivered (twoReplies registered reply) 3 = registered := List.take_of_length_le fits
  have d5 : delivered (twoReplies registered reply) 5 = reply := List.take_of_length_le fits'
  have ne : registered ≠ [] := by
    rintro rfl
    obtain ⟨_, ⟨h, t, _, _, _, e⟩, _⟩ := registers
    have := congrArg List.length e
    simp [header] at this
    omega
  let w : World := ⟨s, twoReplies registered reply, 0, []⟩
  have ho := open_registers (w := w) (host := host) (port := port) (ioPort := ioPort) (handle := handle) ⟨rfl, rfl, rfl, rfl⟩
    (by show Registers s.sessionId (delivered (twoReplies registered reply) 3) handle; rw [unregistered, d3]; exact registers)
  generalize hw1 : ({ w.replied host port ioPort [] with
      s := { (w.replied host port ioPort []).s with sessionId := handle } } : World) = w1 at ho
  have he : w1.env = twoReplies registered reply := by rw [← hw1]; rfl
  have hk : w1.clock = 4 := by rw [← hw1]; rfl
  have ht : w1.trace = openEvents host port ioPort registered := by
    rw [← hw1]
    show [] ++ (openEvents host port ioPort (delivered (twoReplies registered reply) 3) ++ []) = _
    rw [d3]; simp
  have hw : Works w1.env w1.clock := by rw [he]; exact ⟨rfl, rfl⟩
  have hd : delivered w1.env (w1.clock + 1) = reply := by rw [he, hk]; exact d5
  have hcan : CanAll dns Line.down (openEvents host port ioPort registered) ⟨true, true, true, true⟩ :=
    .cons (.connects _ _ _ known.1) (.cons (.opens _ _ _ known.2 rfl) (.cons (.sends _ _ rfl)
      (.cons (.receives _ _ rfl ne fits) (.nil _))))
  have hev : ∃ evs line, (op.run w1).2.trace = w.trace ++ evs ∧ CanAll dns Line.down evs line := by
    rcases command_events cmd hw with h | ⟨bs, h⟩
    · exact ⟨_, _, by rw [h, ht]; rfl, hcan⟩
    · refine ⟨_, _, by rw [h, ht]; rfl, hcan.append (l'' := ⟨true, true, true, true⟩) ?_⟩
      rw [hd]
      exact .cons (.sends _ _ rfl) (.cons (.receives _ _ rfl some fits') (.nil _))
  have hout : outcomes [.open host port ioPort, op] w = ([.ok (), (op.run w1).1], (op.run w1).2) := by
    have : (Op.open host port ioPort).run w = (.ok (), w1) := ho
    simp only [outcomes, this]
    rcases op.run w1 with ⟨r, w2⟩
    cases r <;> rfl
  obtain ⟨k', hn⟩ := (c114_histories fresh [(.open host port ioPort, .ok ()), (op, (op.run w1).1)] w (op.run w1).2).2 ⟨hout, hev⟩
  exact ⟨w, k', w1, rfl, ho, by rw [← hw1], by rw [← hw1]; rfl, hw, hd, hn⟩

/-- C40 is false on the sockets of the library too: a device that answers the first command with a packet without payload, or
with an empty unconnected message item, makes every command dereference a null pointer. -/
theorem c40_violated_sockets {k : Sockets} (fresh : Sockets.Fresh k) (s : Session) (unregistered : s.sessionId = 0)
    (host port ioPort : String) (known : dns host port ≠ [] ∧ dns host ioPort ≠ []) (registered : Bytes) (handle : UInt32)
    (registers : Registers 0 registered handle) (fits : registered.length ≤ 4096) (op : Op) (cmd : IsCommand op)
    (proper : Proper s op) (reply : Bytes) (fits' : reply.length ≤ 4096) (hollow : HollowReply handle reply) :
    ∃ w k' w', w.s = s ∧
      NetHistory dns k w [(.open host port ioPort, .ok ()), (op, .ub .nullDeref)] k' w' := by
  have some : reply ≠ [] := by
    rintro rfl
    obtain ⟨_, ⟨_, ⟨h, t, _, _, _, e⟩, _⟩, _⟩ := hollow
    have := congrArg List.length e
    simp [header] at this
    omega
  obtain ⟨w, k', w1, h1, _, h2, h3, h4, h5, h6⟩ := c114_any_reply fresh s unregistered host port ioPort known registered handle
    registers fits op cmd reply some fits'
  have hp : Proper w1.s op := by
    cases op <;> first | exact proper | trivial | (show _ < w1.s.connections.length; rw [h3]; exact proper)
  rw [c40_violated_hollow op cmd w1 hp h4 (by rw [h2, h5]; exact hollow)] at h6
  exact ⟨w, k', _, h1, h6⟩

/-- C31 is false on the sockets of the library too: an `open` of a session that is open throws, whatever the network does,
and the session still counts as open. -/
theorem c31_violated_sockets {k k' k'' : Sockets} {w w' w'' : World} {as as' : List NetAct} {host port ioPort : String}
    {host' port' ioPort' : String} {r : Res Unit} (h : NetStep dns k w (.open host port ioPort) (.ok ()) as k' w')
    (again : NetStep dns k' w' (.open host' port' ioPort') r as' k'' w'') :
    r = .throw systemError ∧ w''.s.sessionId = w'.s.sessionId ∧ w''.s.sessionId ≠ 0 := by
  have hc := open_cases host port ioPort w
  have run : Session.open host port ioPort w = (.ok (), w') := h.run
  rw [run] at hc
  have ht := h.trace
  clear run
  generalize hr : ((Res.ok (), w') : Res Unit × World) = x at hc
  cases hc with
  | registered handle hw hreg =>
    cases hr
    have hm : calls as = [.opened .tcp host port true] ++ .opened .io host ioPort true ::
        [.sent .tcp registration true, .received .tcp (delivered w.env (w.clock + 3)) true] := by
      have := (List.append_cancel_left ht).symm
      simpa [openEvents] using this
    obtain ⟨k1, k2, x, y, h1, x1, b, h2, y1⟩ := h.happen.at hm
    have ho : k'.udp.isOpen = true := by
      refine (h2.udp_open ?_ (by rw [y1]; simp)).1
      cases b with
      | udpOpen host port env known ok u e =>
        obtain ⟨_, _, ⟨hr, _⟩ | ⟨ep, more, _, _, ⟨hr, _⟩ | ⟨hr, _⟩ | ⟨_, _, _, _, ho, _⟩⟩⟩ := UDPSocket.open_cases e
        · simp at hr
        · simp at hr
        · simp at hr
        · exact ho
    obtain ⟨_, e1, e2⟩ := again.stuck ho (by simp)
    refine ⟨e2 ⟨_, _, _, rfl⟩, e1, ?_⟩
    rw [e1]
    obtain ⟨_, _, a, _⟩ := hreg
    rcases a with a | a
    · exact a.2
    · obtain ⟨a, rfl⟩ := a; exact a
  | _ => cases hr

/-! ### C34 on the sockets of the library -/

/-- C34 (partial: while the control socket is not connected, as before `open` and after `close`). Over the sockets of the
library a command does not succeed and sends nothing, whatever arrives. Missing: unregistered sessions whose control socket is
connected, for which it is false (`c34_violated_sockets`). -/
theorem c34_unconnected_partial {k k' : Sockets} {w w' : World} {op : Op} {r : Res Unit} {as : List NetAct} (cmd : IsCommand op)
    (down : k.tcp.isOpen = false ∨ k.tcp.peer = none) (h : NetStep dns k w op r as k' w') :
    r ≠ .ok () ∧ k'.tcp.sent = k.tcp.sent ∧ (Proper w.s op → r = .throw systemError) := by
  have peer : ∀ {k1 k2 : Sockets} {b : Bytes}, SameRoute k k1 → ¬ Happens dns k1 (.call (.sent .tcp b true)) k2 := by
    intro k1 k2 b hr hb
    cases hb with
    | tcpSend b accepts n ok t e =>
      unfold TCPSocket.send at e
      split at e
      · next p a ho hp =>
        rcases down with d | d
        · rw [hr.tcpOpen, d] at ho; cases ho
        · rw [hr.peer, d] at hp; cases hp
      · cases congrArg Prod.fst e
  have same : ∀ {as : List NetAct} {k1 k2 : Sockets}, AllHappen dns k1 as k2 → calls as = [] → k2.tcp.sent = k1.tcp.sent := by
    intro as k1 k2 h hc
    induction h with
    | nil => rfl
    | cons h t ih =>
      cases h with
      | bytes b => exact (ih hc).trans (TCPSocket.arrive_same _ b).2.2
      | datagram s b => exact ih hc
      | _ => cases hc
  have rr : ∀ {w1 w2 : World} {bs : Bytes} {r1 : Res RRDataResponse}, w1 = w ∨ w1 = w.bumped → RRCases w1 bs (r1, w2) →
      w2.trace = w.trace ++ calls as → r1 = .throw systemError ∧ k'.tcp.sent = k.tcp.sent := by
    intro w1 w2 bs r1 h1 hr ht
    have he : w1.trace = w.trace := by rcases h1 with rfl | rfl <;> rfl
    have no : ∀ rest, calls as ≠ .sent .tcp bs true :: rest := by
      intro rest hm
      obtain ⟨k1, k2, x, y, a, x1, b, c, _⟩ := h.happen.first hm
      exact peer (a.route (plain_of_none x1)) b
    cases hr with
    | sendFails hf =>
      refine ⟨rfl, ?_⟩
      have ht : w1.trace ++ [.sent .tcp bs false] = w.trace ++ calls as := ht
      rw [he] at ht
      obtain ⟨k1, k2, x, y, a, x1, b, c, y1⟩ := h.happen.first (List.append_cancel_left ht).symm
      rw [same c y1]
      refine Eq.trans ?_ (same a x1)
      cases b with
      | tcpSend b accepts n ok t e =>
        unfold TCPSocket.send at e
        split at e
        · cases congrArg Prod.fst e
        · exact congrArg TCPSocket.sent (congrArg Prod.snd e).symm
    | receiveFails =>
      have ht : (w1.trace ++ [.sent .tcp bs true]) ++ [_] = w.trace ++ calls as := ht
      rw [he, List.append_assoc] at ht
      exact absurd (List.append_cancel_left ht).symm (no _)
    | replied =>
      have ht : w1.trace ++ [.sent .tcp bs true, _] = w.trace ++ calls as := ht
      rw [he] at ht
      exact absurd (List.append_cancel_left ht).symm (no _)
  have ht := h.trace
  have hrun := h.run
  cases command_run op cmd w with
  | unsent r' hr h' hp =>
    rw [hrun] at h'
    cases h'
    refine ⟨hr, same h.happen ?_, fun p => absurd p hp⟩
    exact List.append_right_eq_self.1 ht.symm
  | thrown w1 bs e w2 h1 r' h' =>
    rw [hrun] at h'
    cases h'
    obtain ⟨a, b⟩ := rr h1 r' ht
    cases a
    exact ⟨by simp, b, fun _ => rfl⟩
  | crashed w1 bs u w2 h1 r' h' =>
    rw [hrun] at h'
    cases h'
    cases (rr h1 r' ht).1
  | answered w1 bs resp r2 w2 w3 h1 r' h' hs =>
    rw [hrun] at h'
    cases h'
    cases (rr h1 r' ((SameButConnections.eqs hs).1.symm.trans ht)).1

/-- C34 is false on the sockets of the library too: if the local port of the I/O socket is taken, `open` throws and leaves the
control socket connected. A device that then answers with any non-zero handle makes writing an attribute succeed, although
no session was ever registered. -/
theorem c34_violated_sockets {k : Sockets} (fresh : Sockets.Fresh k) (s : Session) (unregistered : s.sessionId = 0)
    (host port ioPort : String) (known : dns host port ≠ [] ∧ dns host ioPort ≠ [])
    (x y z : UInt8) (data : Option Obj) (bs : Bytes) (hd : EncodesOpt data bs) (handle : UInt32) (nz : handle ≠ 0)
    (reply payload : Bytes) (st : UInt8) (a d : Bytes) (frame : Packet reply 0x006F handle payload)
    (body : RRReply payload st 0 a d) (fits : reply.length ≤ 4096) :
    ∃ w k' w', w.s = s ∧ w'.s.sessionId = 0 ∧
      NetHistory dns k w [(.open host port ioPort, .throw systemError), (.setAttribute x y z data, .ok ())] k' w' := by
  let w : World := ⟨s, fun n => ⟨n == 1, reply, 0⟩, 0, []⟩
  let w1 : World := w.log [.opened .tcp host port true, .opened .io host ioPort false]
  have ho : (Op.open host port ioPort).run w = (.throw systemError, w1) := by
    have hc := open_cases host port ioPort w
    show Session.open host port ioPort w = _
    generalize Session.open host port ioPort w = r at hc ⊢
    cases hc with
    | ioFails => rfl
    | tcpFails h => cases h
    | sendFails _ h => cases h
    | receiveFails _ h => cases h
    | registered _ h => cases h.2.1
    | hollow h => cases h.2.1
    | rejected _ h => cases h.2.1
    | tcpCloseFails h => cases h.2.1
    | ioCloseFails h => cases h.2.1
  have hw : Works w1.env w1.clock := ⟨rfl, rfl⟩
  have hdl : delivered w1.env (w1.clock + 1) = reply := List.take_of_length_le fits
  have some : reply ≠ [] := by
    rintro rfl
    obtain ⟨h, t, _, _, _, e⟩ := frame
    have := congrArg List.length e
    simp [header] at this
    omega
  have hs := c34_violated x y z data bs hd w1 unregistered hw handle nz payload st a d (by rw [hdl]; exact frame) body
  have hr : ((Op.setAttribute x y z data).run w1).1 = .ok () := hs
  generalize hop : Op.setAttribute x y z data = op at hr ⊢
  have cmd : IsCommand op := by rw [← hop]; trivial
  have hcan : CanAll dns Line.down [.opened .tcp host port true, .opened .io host ioPort false] ⟨true, true, true, false⟩ :=
    .cons (.connects _ _ _ known.1) (.cons (.portTaken _ _ _ known.2 rfl) (.nil _))
  have hev : ∃ evs line, (op.run w1).2.trace = w.trace ++ evs ∧ CanAll dns Line.down evs line := by
    rcases command_events cmd hw with h | ⟨b, h⟩
    · exact ⟨_, _, by rw [h]; rfl, hcan⟩
    · refine ⟨_, _, by rw [h]; rfl, hcan.append (l'' := ⟨true, true, true, false⟩) ?_⟩
      rw [hdl]
      exact .cons (.sends _ _ rfl) (.cons (.receives _ _ rfl some fits) (.nil _))
  have hout : outcomes [.open host port ioPort, op] w = ([.throw systemError, .ok ()], (op.run w1).2) := by
    simp only [outcomes, ho]
    rcases e : op.run w1 with ⟨r, w2⟩
    rw [e] at hr
    cases hr
    rfl
  obtain ⟨k', hn⟩ := (c114_histories fresh [(.open host port ioPort, .throw systemError), (op, .ok ())] w (op.run w1).2).2
    ⟨hout, hev⟩
  refine ⟨w, k', _, rfl, ?_, hn⟩
  rcases c76_session_id op w1 with h | ⟨⟨_, _, _, rfl⟩, _⟩ | ⟨rfl, _⟩
  · rw [h]; exact unregistered
  · exact cmd.elim
  · exact cmd.elim

/-! ### C97 on the sockets of the library -/

/-- C97 (partial: as long as closing a socket does not fail). Over the sockets of the library the log says that the session
was closed exactly when `close` returned normally; then it is no longer registered. Missing: closing a socket may fail, then
it is false (`c97_violated`). -/
theorem c97_sockets_partial {k k' : Sockets} {w w' : World} {r : Res Unit} {as : List NetAct}
    (h : NetStep dns k w .close r as k' w') (closes : ∀ s, .closed s false ∉ calls as) :
    (.closed ∈ logOf Op.close.runLogged w ↔ r = .ok ()) ∧
      (r = .ok () ↔ w'.s.sessionId = 0 ∧ k'.tcp.isOpen = false ∧ k'.udp.isOpen = false ∧ .closed .tcp true ∈ calls as) := by
  have hrun : Op.close.run w = (r, w') := h.run
  obtain ⟨h1, h2⟩ := c97_closed_partial w (calls as) (by rw [hrun]; exact h.trace)
  rw [hrun] at h2
  have hc := close_cases w
  have run : Session.close w = (r, w') := h.run
  rw [run] at hc
  have ht := h.trace
  rw [h1]
  generalize hr : ((r, w') : Res Unit × World) = x at hc
  cases hc with
  | sendFails hf =>
    cases hr
    have hm : calls as = _ := (List.append_cancel_left ht).symm
    rw [hm]
    simp
  | tcpFails =>
    cases hr
    have hm : calls as = _ := (List.append_cancel_left ht).symm
    exact absurd (by rw [hm]; simp) (closes .tcp)
  | ioFails =>
    cases hr
    have hm : calls as = _ := (List.append_cancel_left ht).symm
    exact absurd (by rw [hm]; simp) (closes .io)
  | closed =>
    cases hr
    have hm : calls as = _ := (List.append_cancel_left ht).symm
    obtain ⟨a, b⟩ := c109_close_partial h
    rw [hm]
    simp only [List.mem_cons, true_or, true_iff]
    exact ⟨trivial, rfl, b, a, by simp⟩

/-! ### The properties on a concrete network -/

/-- What can happen first: only opening sockets, or calls that fail. -/
example : ¬ ∃ l, CanAll exampleDns Line.down [.sent .tcp [1] true] l := by
  rintro ⟨l, h⟩
  cases h with
  | cons h t => cases h with
    | sends _ c => cases c

example : ∃ as k', AllHappen exampleDns exampleSockets as k' ∧
    calls as = [.opened .tcp "device" "44818" true, .sent .tcp [1, 2] true, .received .tcp [3] true, .received .tcp [4, 5] true,
      .closed .tcp true] :=
  (c114_exactly ⟨rfl, _, rfl⟩ _).2 ⟨⟨false, false, false, false⟩,
    .cons (.connects _ _ _ (by decide)) (.cons (.sends _ _ rfl) (.cons (.receives _ _ rfl (by decide) (by decide))
      (.cons (.receives _ _ rfl (by decide) (by decide)) (.cons (.disconnects _) (.nil _)))))⟩

/-- A device that answers the first command with a header and nothing else (C40). -/
example (s : Session) (h : s.sessionId = 0) : ∃ w k' w', w.s = s ∧ NetHistory exampleDns exampleSockets w
    [(.open "device" "44818" "2222", .ok ()), (.setAttribute 1 2 3 none, .ub .nullDeref)] k' w' :=
  c40_violated_sockets ⟨rfl, _, rfl⟩ s h "device" "44818" "2222" (by decide) exampleRegistration 7
    exampleRegistration_registers (by decide) _ trivial ⟨[], rfl⟩ (request 0x6F 7 []) (by decide +kernel)
    ⟨[], ⟨7, ⟨⟨0x6F, 0, 7, 0, (0, 0), 0⟩, [], rfl, rfl, by decide, by decide +kernel⟩, .inr ⟨by decide, rfl⟩⟩, .inl rfl⟩

/-- A device that answers a session it does not know (C34). -/
example (s : Session) (h : s.sessionId = 0) : ∃ w k' w', w.s = s ∧ w'.s.sessionId = 0 ∧ NetHistory exampleDns exampleSockets w
    [(.open "device" "44818" "2222", .throw systemError), (.setAttribute 1 2 3 none, .ok ())] k' w' :=
  c34_violated_sockets ⟨rfl, _, rfl⟩ s h "device" "44818" "2222" (by decide) 1 2 3 none [] rfl 9 (by decide)
    (replyWith 9 0 0x90 0 []) (rrData 0 0 (mrReply 0x90 0 0 0 [] [])) 0x90 [] []
    ⟨⟨0x6F, 20, 9, 0, (0, 0), 0⟩, [], rfl, rfl, by decide, by decide +kernel⟩
    ⟨0, 0, rfl, 0, 0, [], [], ⟨by decide, by decide⟩, by decide⟩ (by decide +kernel)

/-- Before `open` a command fails (C34). -/
example (s : Session) : ∃ w k' w', w.s = s ∧
    NetHistory exampleDns exampleSockets w [(.setAttribute 1 2 3 none, .throw systemError)] k' w' := by
  let w : World := ⟨s, fun _ => ⟨true, [], 0⟩, 0, []⟩
  have key : ∀ op, IsCommand op → Proper s op → ∃ bs w', op.run w = (.throw systemError, w') ∧ w'.trace = [.sent .tcp bs false] := by
    intro op cmd hp
    have rr : ∀ {w1 w2 : World} {bs : Bytes} {r1 : Res RRDataResponse}, w1 = w ∨ w1 = w.bumped → RRCases w1 bs (r1, w2) →
        r1 = .throw systemError ∧ w2.trace = [.sent .tcp bs false] := by
      intro w1 w2 bs r1 h1 hr
      have he : w1.env = w.env ∧ w1.trace = [] := by rcases h1 with rfl | rfl <;> exact ⟨rfl, rfl⟩
      have hf : ∀ n, (w1.env n).fails = true := by intro n; rw [he.1]
      cases hr with
      | sendFails => exact ⟨rfl, by show w1.trace ++ _ = _; rw [he.2]; rfl⟩
      | receiveFails h => rw [hf] at h; cases h
      | replied h => have := h.1; rw [hf] at this; cases this
    cases command_run op cmd w with
    | unsent _ _ _ h => exact absurd hp h
    | thrown w1 bs e w2 h1 r h => obtain ⟨a, b⟩ := rr h1 r; cases a; exact ⟨bs, w2, h, b⟩
    | crashed w1 bs u w2 h1 r h => cases (rr h1 r).1
    | answered w1 bs resp r2 w2 w3 h1 r h hs => cases (rr h1 r).1
  obtain ⟨bs, w', h1, h2⟩ := key (.setAttribute 1 2 3 none) trivial ⟨[], rfl⟩
  obtain ⟨k', h⟩ := (c114_histories (dns := exampleDns) (k := exampleSockets) ⟨rfl, _, rfl⟩
    [(.setAttribute 1 2 3 none, .throw systemError)] w w').2
    ⟨by simp only [List.map_cons, List.map_nil, outcomes, h1]; rfl, _, _, h2, .cons (.unsent _ _ _) (.nil _)⟩
  exact ⟨w, k', w', rfl, h⟩

/-- A session that is opened and closed, and says so (C97). -/
example (s : Session) (h : s.sessionId = 0) : ∃ w w1 w' k1 k' as, w.s = s ∧
    NetHistory exampleDns exampleSockets w [(.open "device" "44818" "2222", .ok ())] k1 w1 ∧
    NetStep exampleDns k1 w1 .close (.ok ()) as k' w' ∧ .closed ∈ logOf Op.close.runLogged w1 := by
  let w : World := ⟨s, twoReplies exampleRegistration [], 0, []⟩
  have ho := open_registers (w := w) (host := "device") (port := "44818") (ioPort := "2222") (handle := 7) ⟨rfl, rfl, rfl, rfl⟩
    (by show Registers s.sessionId _ 7; rw [h]; exact exampleRegistration_registers)
  generalize hw1 : ({ w.replied "device" "44818" "2222" [] with
      s := { (w.replied "device" "44818" "2222" []).s with sessionId := 7 } } : World) = w1 at ho
  have he : ∀ n, (w1.env n).fails = false := by rw [← hw1]; intro n; rfl
  have hc := close_cases w1
  have hclose : ∃ w' evs, Session.close w1 = (.ok (), w') ∧ w'.trace = w1.trace ++ evs ∧
      CanAll exampleDns ⟨true, true, true, true⟩ evs Line.down ∧ ∀ s, .closed s false ∉ evs := by
    generalize Session.close w1 = r at hc
    cases hc with
    | sendFails h => rw [he] at h; cases h
    | tcpFails _ h => rw [he] at h; cases h
    | ioFails _ _ h => rw [he] at h; cases h
    | closed => exact ⟨_, _, rfl, rfl, .cons (.sends _ _ rfl) (.cons (.disconnects _) (.cons (.closes _) (.nil _))), by simp⟩
  obtain ⟨w', evs, h1, h2, h3, h4⟩ := hclose
  obtain ⟨hl, hq⟩ := Spec.Sockets.Fresh.line (k := exampleSockets) ⟨rfl, _, rfl⟩
  have hcan : CanAll exampleDns Line.down (openEvents "device" "44818" "2222" exampleRegistration) ⟨true, true, true, true⟩ :=
    .cons (.connects _ _ _ (by decide)) (.cons (.opens _ _ _ (by decide) rfl) (.cons (.sends _ _ rfl)
      (.cons (.receives _ _ rfl (by decide) (by decide)) (.nil _))))
  have hev : w1.trace = openEvents "device" "44818" "2222" exampleRegistration := by rw [← hw1]; rfl
  rw [← hl] at hcan
  obtain ⟨as1, k1, a1, a2, a3, a4⟩ := hcan.happens hq
  rw [← a3] at h3
  obtain ⟨as, k', b1, b2, _⟩ := h3.happens a4
  have hstep : NetStep exampleDns k1 w1 .close (.ok ()) as k' w' := ⟨h1, by rw [h2, b2], b1⟩
  exact ⟨w, w1, w', k1, k', as, rfl, .call ⟨ho, by rw [a2, hev]; rfl, a1⟩ (by rintro ⟨_, ⟨⟩⟩) (.nil _ _), hstep,
    (c97_sockets_partial hstep (by rw [b2]; exact h4)).1.2 rfl⟩

end Eip
