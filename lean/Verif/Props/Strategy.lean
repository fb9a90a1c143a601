import Verif.Lemmas.Strategy
/-
C113: what a session does is a reaction to how its socket calls went, and the answers may be given by anybody.
-/
namespace Eip
open Spec

/-- C113. Every function of a session carries out a strategy: until it returns or throws, its next socket call is
determined by the state of the session at the beginning and by what was seen of the socket calls since then; so are the
result and the state at the end. -/
theorem c113_strategy (s : Session) :
    (∀ host port ioPort, Follows (Session.open host port ioPort) s) ∧ Follows Session.close s ∧ Follows Session.destroy s ∧
    (∀ (δ : Type) (c : Class δ) (x y z : UInt8) (init : δ), Follows (fun w =>
      match Session.getSingleAttributeSerializable c x y z (init, w) with
      | (r, (d, w')) => ((r, d), w')) s) ∧
    (∀ x y z data, Follows (Session.setSingleAttributeSerializable x y z data) s) ∧
    (∀ o t, Follows (Session.createConnection o t) s) ∧ (∀ n, Follows (Session.closeConnection n) s) ∧
    (∀ n, Follows (Session.getConnection n) s) ∧ Follows Session.receiveIOPacket s ∧
    (∀ pkt, Follows (Session.sendIOPacket pkt) s) :=
  ⟨fun h p i => Strategic.open h p i s, Strategic.close s, Strategic.destroy s,
    fun _ c x y z init => Strategic.getAttribute c x y z init s, fun x y z d => Strategic.setAttribute x y z d s,
    fun o t => Strategic.createConnection o t s, fun n => Strategic.closeConnection n s,
    fun n => Strategic.getConnection n s, Strategic.receiveIO s, fun p => Strategic.sendIO p s⟩

/-- C113: two histories of the same calls on equal sessions have the same socket calls with the same answers, and then the
same outcomes and the same state at the end; or the first difference is that one socket call was answered differently. -/
theorem c113_first_difference (ops : List Op) (s : Session) (env env' : Nat → Answer) (n n' : Nat) (trace trace' : List Ev) :
    (∃ evs, (outcomes ops ⟨s, env, n, trace⟩).2.trace = trace ++ evs ∧
      (outcomes ops ⟨s, env', n', trace'⟩).2.trace = trace' ++ evs ∧
      (outcomes ops ⟨s, env, n, trace⟩).1 = (outcomes ops ⟨s, env', n', trace'⟩).1 ∧
      (outcomes ops ⟨s, env, n, trace⟩).2.s = (outcomes ops ⟨s, env', n', trace'⟩).2.s) ∨
    (∃ (pre : List Ev) (call : SockReq) (a a' : Answer) (rest rest' : List Ev), call.event a ≠ call.event a' ∧
      (outcomes ops ⟨s, env, n, trace⟩).2.trace = trace ++ pre ++ call.event a :: rest ∧
      (outcomes ops ⟨s, env', n', trace'⟩).2.trace = trace' ++ pre ++ call.event a' :: rest') := by
  obtain ⟨t, ht⟩ := Strategic.outcomes ops s
  rw [ht, ht]
  exact exec_differ t env env' n n' trace trace'

/-- C113: a history in which the same is seen from outside has the same outcomes and leaves the session in the same
state. -/
theorem c113_seen (ops : List Op) (s : Session) (env env' : Nat → Answer) (n n' : Nat) (trace trace' evs : List Ev)
    (h : (outcomes ops ⟨s, env, n, trace⟩).2.trace = trace ++ evs)
    (h' : (outcomes ops ⟨s, env', n', trace'⟩).2.trace = trace' ++ evs) :
    (outcomes ops ⟨s, env, n, trace⟩).1 = (outcomes ops ⟨s, env', n', trace'⟩).1 ∧
      (outcomes ops ⟨s, env, n, trace⟩).2.s = (outcomes ops ⟨s, env', n', trace'⟩).2.s := by
  rcases c113_first_difference ops s env env' n n' trace trace' with ⟨_, _, _, h1, h2⟩ | ⟨pre, call, a, a', rest, rest', hne, h1, h2⟩
  · exact ⟨h1, h2⟩
  · rw [h, List.append_assoc] at h1
    rw [h', List.append_assoc] at h2
    have e := (List.append_cancel_left h1).symm.trans (List.append_cancel_left h2)
    exact absurd (List.cons.inj (List.append_cancel_left e)).1 hne

/-- C113: fixing the answers of the sockets beforehand loses nothing. For every party that reacts to what the session
does, in any way, there are answers with which every history of calls runs as with that party. -/
theorem c113_reactive (react : Reaction) (ops : List Op) (s : Session) (trace : List Ev) (n : Nat) :
    ∃ (env : Nat → Answer) (evs : List Ev), (outcomes ops ⟨s, env, n, trace⟩).2.trace = trace ++ evs ∧
      Played react trace evs := by
  obtain ⟨t, ht⟩ := Strategic.outcomes ops s
  obtain ⟨as, h⟩ := exec_played react t n trace
  obtain ⟨evs, h1, _, h3⟩ := h (fun i => as.getD (i - n) ⟨false, [], 0⟩) (fun i a hi => by
    simp [List.getD, show n + i - n = i by omega, hi])
  exact ⟨_, evs, by rw [ht]; exact h1, h3⟩

/-- C113: and this run is the only one: histories played against the same party look the same from outside. -/
theorem c113_one_run (react : Reaction) (ops : List Op) (s : Session) (trace evs evs' : List Ev) (n n' : Nat)
    (env env' : Nat → Answer) (h : (outcomes ops ⟨s, env, n, trace⟩).2.trace = trace ++ evs) (p : Played react trace evs)
    (h' : (outcomes ops ⟨s, env', n', trace⟩).2.trace = trace ++ evs') (p' : Played react trace evs') :
    evs = evs' ∧ (outcomes ops ⟨s, env, n, trace⟩).1 = (outcomes ops ⟨s, env', n', trace⟩).1 := by
  rcases c113_first_difference ops s env env' n n' trace trace with ⟨_, h1, h2, h3, _⟩ | ⟨pre, call, a, a', rest, rest', hne, h1, h2⟩
  · rw [h] at h1
    rw [h'] at h2
    exact ⟨(List.append_cancel_left h1).trans (List.append_cancel_left h2).symm, h3⟩
  · exfalso
    rw [h, List.append_assoc] at h1
    rw [h', List.append_assoc] at h2
    have e := List.append_cancel_left h1
    have e' := List.append_cancel_left h2
    subst e e'
    have same : ∀ (c c' : SockReq) (a b : Answer), c.event a = c'.event b → c = c' := by
      intro c c' a b h
      cases c <;> cases c' <;> simp_all [SockReq.event]
    have at_pre : ∀ (pre past : List Ev) (c : SockReq) (a : Answer) (rest : List Ev),
        Played react past (pre ++ c.event a :: rest) → c.event a = c.event (react (past ++ pre) c) := by
      intro pre
      induction pre with
      | nil =>
        intro past c a rest h
        obtain ⟨⟨c', hc⟩, _⟩ := h
        have := same c c' _ _ hc
        subst this
        simpa using hc
      | cons ev pre ih =>
        intro past c a rest h
        have := ih _ c a rest h.2
        simpa using this
    exact hne ((at_pre pre trace call a rest p).trans (at_pre pre trace call a' rest' p').symm)

/-- A device that answers the first frame it is sent with a registration reply, repeating 4 bytes of what it was sent. -/
def exampleReaction : Reaction := fun past _ =>
  match past.getLast? with
  | some (.sent .tcp b true) =>
    ⟨false, b.take 4 ++ [0x0d, 0xf0, 0xad, 0x0b] ++ List.replicate 16 0 ++ b.drop 24, 0⟩
  | _ => ⟨false, [], 0⟩

/-- Against it, opening a session succeeds. -/
example : ∃ env, (outcomes [.open "host" "44818" "2222"] ⟨Session.new 1 2 3 4 [], env, 0, []⟩).1 = [.ok ()] ∧
    Played exampleReaction [] (outcomes [.open "host" "44818" "2222"] ⟨Session.new 1 2 3 4 [], env, 0, []⟩).2.trace := by
  refine ⟨fun n => if n = 3 then ⟨false, [0x65, 0, 4, 0, 0x0d, 0xf0, 0xad, 0x0b, 0, 0, 0, 0, 0, 0, 0, 0, 0, 0, 0, 0, 0, 0, 0, 0,
    1, 0, 0, 0], 0⟩ else ⟨false, [], 0⟩, by decide +kernel, ?_⟩
  have e : (outcomes [.open "host" "44818" "2222"] ⟨Session.new 1 2 3 4 [], fun n => if n = 3 then ⟨false,
      [0x65, 0, 4, 0, 0x0d, 0xf0, 0xad, 0x0b, 0, 0, 0, 0, 0, 0, 0, 0, 0, 0, 0, 0, 0, 0, 0, 0,
      1, 0, 0, 0], 0⟩ else ⟨false, [], 0⟩, 0, []⟩).2.trace =
      [.opened .tcp "host" "44818" true, .opened .io "host" "2222" true,
       .sent .tcp [0x65, 0, 4, 0, 0, 0, 0, 0, 0, 0, 0, 0, 0, 0, 0, 0, 0, 0, 0, 0, 0, 0, 0, 0, 1, 0, 0, 0] true,
       .received .tcp [0x65, 0, 4, 0, 0x0d, 0xf0, 0xad, 0x0b, 0, 0, 0, 0, 0, 0, 0, 0, 0, 0, 0, 0, 0, 0, 0, 0,
         1, 0, 0, 0] true] := by decide +kernel
  rw [e]
  exact ⟨⟨.open .tcp "host" "44818", rfl⟩, ⟨.open .io "host" "2222", rfl⟩, ⟨.send .tcp _, rfl⟩, ⟨.receive .tcp, rfl⟩, trivial⟩

end Eip
