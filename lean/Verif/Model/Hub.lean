import Verif.Model.Lan
/-
Several scanners on one `io_service` (io_scanner.h:46: the constructor takes a reference to it).
-/
namespace Eip

/-- An `io_service` and the scanners that were made with it, `none` once destroyed. `stopped`: a run of the service has come
to its end for want of work; Boost's `run` then returns at once until somebody calls `reset`, which the library never does.
`cancelled`: handlers of receive operations that were cancelled and have not been called yet. `errors`: how often src/io_scanner.cpp:81
was logged for them. -/
structure Hub where
  stopped : Bool
  cancelled : Nat
  errors : Nat
  scanners : List (Option LanScanner)

namespace Hub

/-- A new `io_service` (io_scanner.h:46). -/
def new : Hub := ⟨false, 0, 0, []⟩

/-- How many receive operations a scanner has outstanding (src/io_scanner.cpp:54). -/
def waits : Option LanScanner → Nat
  | some s => s.scanner.receives
  | none => 0

/-- What the service has to wait for: the outstanding receive operations of all its scanners (src/io_scanner.cpp:54). -/
def work (h : Hub) : Nat := (h.scanners.map waits).sum

/-- The constructor (src/io_scanner.cpp:49-59). The result is the number under which the scanner is known here. -/
def make (lan : Lan) (hostname : String) : Prog Hub Nat := fun h =>
  match LanScanner.new lan hostname with
  | .ok s => (.ok h.scanners.length, { h with scanners := h.scanners ++ [some s] })
  | .throw e => (.throw e, h)
  | .ub u => (.ub u, h)

/-- The destructor (io_scanner.h:48-51): closing the socket cancels its receive operation; the handler will be called with an
error by the next run of the service. Simplification: at that time it is called on an object that is gone, which is tolerated here
because for an error it looks at no member (src/io_scanner.cpp:79-83). -/
def destroy (i : Nat) : Prog Hub Unit := fun h =>
  match h.scanners[i]? with
  | some (some s) => (.ok (), { h with cancelled := h.cancelled + s.scanner.receives, scanners := h.scanners.set i none })
  | _ => (.ub .danglingAccess, h)

/-- `io_service::run()` (src/io_scanner.cpp:164) on a service that is not stopped, once the handlers of cancelled operations have
been called: it waits as long as any scanner has a receive operation outstanding. `mail`: what arrives, with the scanner it arrives
at. A scanner that has no port or no receive operation outstanding does not see its mail. -/
def listen (env : ScanEnv) : List (Nat × Mail) → Prog Hub (Option (List (Nat × Mail)))
  | [] => fun h => if h.work = 0 then (.ok (some []), { h with stopped := true }) else (.ok none, h)
  | (j, m) :: rest => fun h =>
    if h.work = 0 then (.ok (some ((j, m) :: rest)), { h with stopped := true })
    else
      match h.scanners[j]? with
      | some (some s) =>
        match s.scanner.receives with
        | 0 => listen env rest h
        | n + 1 =>
          if !s.bound then listen env rest h
          else
            match Scanner.handleListIdentityResponse env (.datagram m.data) { s.scanner with receives := n } with
            | (.ok (), c) => listen env rest { h with scanners := h.scanners.set j (some { s with scanner := c }) }
            | (.throw e, c) => (.throw e, { h with scanners := h.scanners.set j (some { s with scanner := c }) })
            | (.ub u, c) => (.ub u, { h with scanners := h.scanners.set j (some { s with scanner := c }) })
      | _ => listen env rest h

/-- `io_service::run()` (src/io_scanner.cpp:164). -/
def runService (env : ScanEnv) (mail : List (Nat × Mail)) : Prog Hub (Option (List (Nat × Mail))) := fun h =>
  if h.stopped then (.ok (some mail), h)
  else listen env mail { h with cancelled := 0, errors := h.errors + h.cancelled }

/-- `run` of scanner `i` (src/io_scanner.cpp:160-165): the service it runs is that of all of them. -/
def run (lan : Lan) (env : ScanEnv) (i : Nat) (mail : List (Nat × Mail)) : Prog Hub (Option (List (Nat × Mail))) := fun h =>
  match h.scanners[i]? with
  | some (some s) =>
    match LanScanner.sendListIdentityRequest lan env.junk s with
    | (.ok (), s') => runService env mail { h with scanners := h.scanners.set i (some s') }
    | (.throw e, s') => (.throw e, { h with scanners := h.scanners.set i (some s') })
    | (.ub u, s') => (.ub u, { h with scanners := h.scanners.set i (some s') })
  | _ => (.ub .danglingAccess, h)

/-- What a program does with scanners (io_scanner.h:46-67). -/
inductive Call
  | make (lan : Lan) (hostname : String)
  | destroy (i : Nat)
  | run (lan : Lan) (env : ScanEnv) (i : Nat) (mail : List (Nat × Mail))

/-- One call (io_scanner.h:46-67); only the service and the scanners it leaves. -/
def Call.after : Call → Hub → Hub
  | .make lan hostname, h => (Hub.make lan hostname h).2
  | .destroy i, h => (Hub.destroy i h).2
  | .run lan env i mail, h => (Hub.run lan env i mail h).2

/-- Call after call (io_scanner.h:46-67). -/
def after (calls : List Call) (h : Hub) : Hub := calls.foldl (fun h c => c.after h) h

end Hub
end Eip
