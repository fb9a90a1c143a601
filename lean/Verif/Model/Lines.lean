import Verif.Model.ScanLog
/-
The characters of the log: what `vsnprintf` makes of numbers and strings, how much of it console_bridge keeps, and which
messages it passes on. The calls are in src/session.cpp, src/connection.cpp, src/rr_data.cpp and src/io_scanner.cpp at the
lines given at `LogMsg`.

Assumption: console_bridge is neither part of /repo nor installed where this model was written, so what is said here about
it (a buffer of 1024 characters, the order of the levels, the default level) was not read from its source. It is marked
"assumed" below and belongs to the trusted base of the theorems that use it.
-/
namespace Eip

/-- A digit as `%d`, `%u`, `%zu` and `%X` write it (the formats are at src/session.cpp:62-355, src/connection.cpp:113-133,
src/io_scanner.cpp:92-152). -/
def digit (n : Nat) : UInt8 := UInt8.ofNat (if n < 10 then 48 + n else 55 + n)

/-- The digits of a number without leading zeros, as `%d`, `%u` and `%zu` write them (same lines). -/
def digits (base n : Nat) : Bytes :=
  if _h : n < base ∨ base < 2 then [digit n] else digits base (n / base) ++ [digit (n % base)]
termination_by n
decreasing_by exact Nat.div_lt_self (by omega) (by omega)

/-- The bytes of a string: of a format or of `what()` (same lines). -/
def utf8 (s : String) : Bytes := s.toByteArray.data.toList

/-- The characters of a part of a message: `%08X` fills up with zeros (src/connection.cpp:133), a negative `%d` has a minus
sign (src/io_scanner.cpp:144, 150). -/
def Shown.bytes : Shown → Bytes
  | .text t => utf8 t
  | .dec n => if n < 0 then 45 :: digits 10 n.natAbs else digits 10 n.natAbs
  | .hex n => List.replicate (8 - (digits 16 n).length) 48 ++ digits 16 n
  | .str s => utf8 s
  | .chars bs => bs

/-- What is left of a formatted message. Assumed: console_bridge formats into `char buf[1024]`, of which the last is the
terminating zero. `printf` (src/connection.cpp:133, src/io_scanner.cpp:156) has no limit. -/
def Level.keep : Level → Bytes → Bytes
  | .print, bs => bs
  | .debug, bs | .inform, bs | .warn, bs | .error, bs => bs.take 1023

/-- The line a log call hands to the output handler (or prints); see the lines given at `LogMsg`. -/
def LogMsg.line (m : LogMsg) (f : Frame) : Option Bytes :=
  (m.text f).map (fun shown => m.level.keep (shown.flatMap Shown.bytes))

/-- The log level of console_bridge (`console_bridge::setLogLevel`), which none of the lines given at `LogMsg` changes. -/
inductive Threshold
  | debug
  | inform
  | warn
  | error
  | none
  deriving DecidableEq, Repr

/-- The level console_bridge starts with. Assumed: warnings and errors; nothing in /repo sets it. -/
def Threshold.default : Threshold := .warn

/-- Does console_bridge pass a message of this level on to the output handler? Assumed: if its level is at least the level
set. What is printed does not go through console_bridge (src/connection.cpp:133, src/io_scanner.cpp:156). -/
def Level.passes : Level → Threshold → Bool
  | .print, _ => true
  | _, .none => false
  | .error, _ => true
  | .warn, t => t ≠ .error
  | .inform, t => t = .inform ∨ t = .debug
  | .debug, t => t = .debug

end Eip
