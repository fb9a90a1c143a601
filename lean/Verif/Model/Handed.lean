import Verif.Model.Session
/-
The references that `getConnection` hands out: `connections_` (session.h:219) as a vector in memory.
-/
namespace Eip

/-- A `std::vector`: which allocation its elements are in, for how many there is room, and the elements. Allocations are
numbered; a new one is never one that was in use before as far as references into it are concerned. -/
structure Vec (α : Type) where
  block : Nat
  capacity : Nat
  elems : List α

/-- A reference to an element of a vector: the allocation and the position in it. -/
structure Handed where
  block : Nat
  index : Nat
  deriving DecidableEq, Repr

namespace Vec

/-- `push_back` (src/session.cpp:316): when there is no room, the elements move to a new allocation and the old one is freed.
`grow n` is the room a full vector of `n` elements asks for; the language only promises that it is enough. -/
def pushBack {α : Type} (grow : Nat → Nat) (x : α) (v : Vec α) : Vec α :=
  if v.elems.length < v.capacity then { v with elems := v.elems ++ [x] }
  else ⟨v.block + 1, grow v.elems.length, v.elems ++ [x]⟩

/-- `erase(begin() + n)` (src/session.cpp:332): the later elements are assigned to the places before them, and the last place
is destroyed. The allocation stays. -/
def erase {α : Type} (n : Nat) (v : Vec α) : Vec α := { v with elems := v.elems.eraseIdx n }

/-- Use of a reference (session.h:187): reading through one whose allocation has been freed or whose element has been destroyed
is undefined behaviour. -/
def deref {α : Type} (r : Handed) (v : Vec α) : Res α :=
  if r.block ≠ v.block then .ub .danglingAccess
  else match v.elems[r.index]? with
    | some x => .ok x
    | none => .ub .danglingAccess

end Vec

/-- A session (session.h:206-219) with its vector of connections as it is in memory. Simplification: the calls work on the list
in `world`, and the vector follows them. -/
structure HandedWorld where
  world : World
  vec : Vec Connection

namespace HandedWorld

/-- `getConnection` (session.h:187-190): a reference, not a copy. -/
def getConnection (n : Nat) : Prog HandedWorld Handed := fun h =>
  if n < h.vec.elems.length then (.ok ⟨h.vec.block, n⟩, h) else (.ub .indexOutOfRange, h)

/-- What a call does to the vector, from how it ended and the list it left: `createConnection` that returns has appended its
local `conn` (src/session.cpp:316), `closeConnection` that returns has erased one element (line 332); nothing else touches the
vector (src/session.cpp:48-360). -/
def follow (grow : Nat → Nat) (op : Op) (r : Res Unit) (after : List Connection) (v : Vec Connection) : Vec Connection :=
  match op, r, after.getLast? with
  | .createConnection _ _, .ok _, some c => v.pushBack grow c
  | .closeConnection n, .ok _, _ => v.erase n
  | _, _, _ => v

/-- One call on the session (session.h:83-204). -/
def step (grow : Nat → Nat) (op : Op) : Prog HandedWorld Unit := fun h =>
  ((op.run h.world).1,
    ⟨(op.run h.world).2, follow grow op (op.run h.world).1 (op.run h.world).2.s.connections h.vec⟩)

/-- A history of calls, as `runOps` (session.h:83-204): the caller goes on after exceptions. -/
def steps (grow : Nat → Nat) : List Op → HandedWorld → HandedWorld × Bool
  | [], h => (h, true)
  | op :: ops, h =>
    match step grow op h with
    | (.ok _, h') => steps grow ops h'
    | (.throw _, h') => steps grow ops h'
    | (.ub _, h') => (h', false)

end HandedWorld
end Eip
