import Verif.Model.Session
/-
What it means that a session only reacts: its next socket call is determined by how the earlier ones went.
-/
namespace Eip.Spec
open Eip

/-- A call on one of the sockets, without its result. -/
inductive SockReq
  | «open» (s : Sock) (hostname port : String)
  | close (s : Sock)
  | send (s : Sock) (bytes : Bytes)
  | receive (s : Sock)
  deriving DecidableEq, Repr

/-- The call with the given answer, as seen from outside. A receive takes at most 4096 bytes. -/
def SockReq.event : SockReq → Answer → Ev
  | .open s hostname port, a => .opened s hostname port (!a.fails)
  | .close s, a => .closed s (!a.fails)
  | .send s bytes, a => .sent s bytes (!a.fails)
  | .receive s, a => .received s (a.data.take 4096) (!a.fails)

/-- A way to proceed: stop with a result and a state of the session, or make a socket call and go on depending on what is
seen of it from outside. -/
inductive Strategy (ρ : Type)
  | done (result : ρ) (s : Session)
  | ask (call : SockReq) (next : Ev → Strategy ρ)

/-- Carrying out a strategy when `env` answers the calls, `n` calls have been made, and `trace` has happened. -/
def Strategy.exec {ρ : Type} : Strategy ρ → (env : Nat → Answer) → (n : Nat) → (trace : List Ev) → ρ × World
  | .done r s, env, n, trace => (r, ⟨s, env, n, trace⟩)
  | .ask call next, env, n, trace =>
    (next (call.event (env n))).exec env (n + 1) (trace ++ [call.event (env n)])

/-- Started with a session in state `s`, the program carries out a strategy. -/
def Follows {ρ : Type} (p : World → ρ × World) (s : Session) : Prop :=
  ∃ t : Strategy ρ, ∀ env n trace, p ⟨s, env, n, trace⟩ = t.exec env n trace

/-- The outcomes of a history of calls, one after the other, up to undefined behaviour. -/
def outcomes : List Op → World → List (Res Unit) × World
  | [], w => ([], w)
  | op :: ops, w =>
    match op.run w with
    | (.ub u, w') => ([.ub u], w')
    | (r, w') => Prod.map (r :: ·) id (outcomes ops w')

/-- A party that reacts: how it answers a socket call depends on what has happened and on the call. -/
abbrev Reaction := List Ev → SockReq → Answer

/-- These events are socket calls answered by the reaction, after `past` has happened. -/
def Played (react : Reaction) : (past evs : List Ev) → Prop
  | _, [] => True
  | past, ev :: evs => (∃ call : SockReq, ev = call.event (react past call)) ∧ Played react (past ++ [ev]) evs

end Eip.Spec
