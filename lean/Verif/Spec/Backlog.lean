import Verif.Spec.Device
/-
The control connection seen from outside: a device that answers every request it gets, in order, and a network that
delivers the answers whole and in order.
-/
namespace Eip.Spec

/-- The answers on their way after these events, given those on their way before; `none` if the events do not fit: a
receive takes the oldest answer. A receive that fails takes none, a request that is not sent gets none, and opening or
closing the connection drops them all. -/
def backlog (device : Bytes → Bytes) : List Bytes → List Ev → Option (List Bytes)
  | q, [] => some q
  | q, .sent .tcp bytes true :: es => backlog device (q ++ [device bytes]) es
  | [], .received .tcp _ true :: _ => none
  | r :: q, .received .tcp data true :: es => if data = r then backlog device q es else none
  | _, .opened .tcp _ _ true :: es => backlog device [] es
  | _, .closed .tcp true :: es => backlog device [] es
  | q, _ :: es => backlog device q es

/-- The requests sent over the control connection, in order. -/
def requestsIn : List Ev → List Bytes
  | [] => []
  | .sent .tcp bytes true :: es => bytes :: requestsIn es
  | _ :: es => requestsIn es

/-- The answers received from the control connection, in order. -/
def answersIn : List Ev → List Bytes
  | [] => []
  | .received .tcp data true :: es => data :: answersIn es
  | _ :: es => answersIn es

/-- No receive has failed. -/
def NoLostReceive (evs : List Ev) : Prop := ∀ s data, Ev.received s data false ∉ evs

/-- A device that grants every connection asked for: its answer to a forward open request names the connection of the
request. -/
def GrantsAll (device : Bytes → Bytes) (handle : UInt32) : Prop :=
  ∀ body sn vendor originator, triadOf body = triad sn vendor originator → ∃ data oToT tToO oApi tApi,
    Response handle (device (openFrame handle body)) 0xDB 0 data ∧
    OpenReply data oToT tToO sn vendor originator oApi tApi

end Eip.Spec
