import Verif.Lemmas.Open
import Verif.Model.Copy
/-
C51 - C54, C77: closing and destroying sessions.
-/
namespace Eip
open Spec

/-! ### C51 -/

/-- C51. If `close` returns, the calls made were exactly: one send of the unregister frame with the session's handle
and no payload, close of the control socket, close of the IO socket. The session id is 0 afterwards, and nothing else
in the session has changed. -/
theorem c51_close (w w' : World) (h : Session.close w = (.ok (), w')) :
    w'.trace = w.trace ++ [.sent .tcp (request 0x66 w.s.sessionId []) true, .closed .tcp true, .closed .io true] ∧
      w'.s = { w.s with sessionId := 0 } ∧
      isOpen .tcp true w'.trace = false ∧ isOpen .io true w'.trace = false := by
  have hc := close_cases w
  rw [h] at hc
  cases hc with
  | closed =>
    refine ⟨rfl, rfl, ?_, ?_⟩
    · simp only [World.logS, isOpen_append]; simp [isOpen]
    · simp only [World.logS, isOpen_append]; simp [isOpen]

/-- With working sockets `close` does return. -/
theorem c51_close_returns (w : World) (works : ∀ i, i < 3 → (w.env (w.clock + i)).fails = false) :
    (Session.close w).1 = .ok () := by
  have hc := close_cases w
  have h0 := works 0 (by omega)
  have h1 := works 1 (by omega)
  have h2 := works 2 (by omega)
  generalize he : Session.close w = r at hc ⊢
  cases hc with
  | sendFails h => simp at h0; rw [h0] at h; cases h
  | tcpFails _ h => rw [h1] at h; cases h
  | ioFails _ _ h => rw [h2] at h; cases h
  | closed => rfl

/-- An open session with the given handle and working sockets. -/
def c51_world : World := ⟨{ Session.new 1 2 3 4 [] with sessionId := 7 }, fun _ => ⟨false, [], 0⟩, 0, []⟩

example : Session.close c51_world = (.ok (), (Session.close c51_world).2) := by
  have := c51_close_returns c51_world (fun _ _ => rfl)
  rw [← this]

example : request 0x66 7 [] = [0x66, 0, 0, 0, 7, 0, 0, 0, 0, 0, 0, 0, 0, 0, 0, 0, 0, 0, 0, 0, 0, 0, 0, 0] := by decide

/-! ### C52 -/

/-- C52. If `close` throws, it is because of a socket error, and the session object is unchanged; calling `close` or
the destructor again starts with the same unregister message. -/
theorem c52_failed_close (w w' : World) (e : Exn) (h : Session.close w = (.throw e, w')) :
    e = systemError ∧ w'.s = w.s ∧
      (∃ ok rest, (Session.close w').2.trace = w'.trace ++ .sent .tcp (request 0x66 w.s.sessionId []) ok :: rest) ∧
      (w.s.sessionId ≠ 0 →
        ∃ ok rest, (Session.destroy w').2.trace = w'.trace ++ .sent .tcp (request 0x66 w.s.sessionId []) ok :: rest) ∧
      ((∀ n, w'.clock ≤ n → (w'.env n).fails = false) →
        (Session.close w').1 = .ok () ∧ (Session.close w').2.s.sessionId = 0) := by
  have hs : e = systemError ∧ w'.s = w.s := by
    have hc := close_cases w
    rw [h] at hc
    cases hc <;> exact ⟨rfl, rfl⟩
  have again : ∃ ok rest, (Session.close w').2.trace =
      w'.trace ++ .sent .tcp (request 0x66 w.s.sessionId []) ok :: rest := by
    rw [← hs.2]
    have hc := close_cases w'
    generalize Session.close w' = r at hc ⊢
    cases hc <;> exact ⟨_, _, rfl⟩
  refine ⟨hs.1, hs.2, again, ?_, ?_⟩
  · intro hne
    rw [destroy_eq, if_pos (by rw [hs.2]; exact hne)]
    obtain ⟨ok, rest, e⟩ := again
    refine ⟨ok, rest, ?_⟩
    rw [← e]
    rcases Session.close w' with ⟨(_ | _ | _), _⟩ <;> rfl
  · intro hw
    have := c51_close_returns w' (fun i _ => hw _ (Nat.le_add_right _ _))
    refine ⟨this, ?_⟩
    have e : Session.close w' = (.ok (), (Session.close w').2) := by rw [← this]
    rw [(c51_close w' _ e).2.1]

/-- The first attempt fails to close the IO socket. -/
example : (Session.close { c51_world with env := fun n => ⟨n = 2, [], 0⟩ }).1 = .throw systemError := by decide +kernel

/-! ### C53 -/

/-- C53. The destructor neither throws nor crashes. For a session that is not open it makes no socket call. For an open
session its first call is the send of the unregister frame with the session's handle. -/
theorem c53_destroy (w : World) :
    (Session.destroy w).1 = .ok () ∧
    (w.s.sessionId = 0 → (Session.destroy w).2 = w) ∧
    (w.s.sessionId ≠ 0 → ∃ ok rest, (Session.destroy w).2.trace =
        w.trace ++ .sent .tcp (request 0x66 w.s.sessionId []) ok :: rest ∧
        (∀ s bytes ok', .sent s bytes ok' ∉ rest)) := by
  rw [destroy_eq]
  by_cases h : w.s.sessionId = 0
  · rw [if_neg (by simp [h])]
    exact ⟨rfl, fun _ => rfl, fun h' => absurd h h'⟩
  · rw [if_pos h]
    have hc := close_cases w
    generalize Session.close w = r at hc ⊢
    cases hc <;> refine ⟨rfl, fun h' => absurd h' h, fun _ => ⟨_, _, rfl, by simp⟩⟩

example : c51_world.s.sessionId ≠ 0 := by decide

/-! ### C54 -/

/-- C54 is false for every session with connections: `close` keeps the connection list. -/
theorem c54_violated (w w' : World) (h : Session.close w = (.ok (), w')) (some : w.s.connections ≠ []) :
    w'.s.connections = w.s.connections ∧ w'.s.connections ≠ [] := by
  rw [(c51_close w w' h).2.1]
  exact ⟨rfl, some⟩

/-- C54 (partial: sessions without connections). Missing: all others, for which it is false. -/
theorem c54_no_connections_partial (w w' : World) (h : Session.close w = (.ok (), w')) (none : w.s.connections = []) :
    w'.s.connections = [] := by
  rw [(c51_close w w' h).2.1]
  exact none

/-- A device that answers a registration and a forward open. -/
def c54_world : World where
  s := Session.new 1 2 3 4 []
  env := fun n =>
    if n = 3 then ⟨false, header ⟨0x65, 4, 7, 0, (0, 0), 0⟩ ++ register 1 0, 0⟩
    else ⟨false, header ⟨0x6F, 46, 7, 0, (0, 0), 0⟩ ++ rrData 0 0 (mrReply 0xDB 0 0 0 []
      (forwardOpenReply 8 9 3 1 2 100 200 0 0 [])), 0⟩
  clock := 0
  trace := []

/-- Open, create a connection, close: the connection is still listed. -/
example : (runOps [.open "h" "p" "q", .createConnection ⟨1, 2, 3⟩ ⟨4, 5, 6⟩, .close] c54_world).1.s.connections.length = 1
    ∧ (runOps [.open "h" "p" "q", .createConnection ⟨1, 2, 3⟩ ⟨4, 5, 6⟩, .close] c54_world).1.s.sessionId = 0 := by
  decide +kernel

/-! ### C77 -/

/-- C77 is false for every open session with working sockets: when a copy goes out of scope, the session is
unregistered at the device and both sockets are closed, while the original still has its session id. -/
theorem c77_violated (w : World) (opened : w.s.sessionId ≠ 0)
    (works : ∀ i, i < 3 → (w.env (w.clock + i)).fails = false) :
    ∃ w', Session.onCopy Session.destroy w = (.ok (), w') ∧ w'.s = w.s ∧
      w'.trace = w.trace ++ [.sent .tcp (request 0x66 w.s.sessionId []) true, .closed .tcp true, .closed .io true] ∧
      isOpen .tcp true w'.trace = false ∧ isOpen .io true w'.trace = false := by
  have h := c51_close_returns w works
  have e : Session.close w = (.ok (), (Session.close w).2) := by rw [← h]
  obtain ⟨h1, h2, h3, h4⟩ := c51_close w _ e
  have ed : Session.destroy w = (.ok (), (Session.close w).2) := by
    rw [destroy_eq, if_pos opened, e]
  refine ⟨{ (Session.close w).2 with s := w.s }, ?_, rfl, h1, h3, h4⟩
  rw [Session.onCopy, ed]

example : c51_world.s.sessionId ≠ 0 ∧ ∀ i, i < 3 → (c51_world.env (c51_world.clock + i)).fails = false :=
  ⟨by decide, fun _ _ => rfl⟩

/-- C77 (partial: sessions that are not open). Missing: open sessions, for which it is false. -/
theorem c77_copy_harmless_partial (w : World) (closed : w.s.sessionId = 0) :
    Session.onCopy Session.destroy w = (.ok (), w) := by
  rw [Session.onCopy, destroy_eq, if_neg (by simp [closed])]

end Eip
