import Verif.Model.Ports
import Verif.Spec.Wired
/-
Vocabulary for several sessions in one program (C127).
-/
namespace Eip.Spec
open Eip

variable {ι : Type}

/-- Before any session is opened. -/
def Machine.Fresh (m : Machine ι) : Prop := ∀ i, Sockets.Fresh (m.sockets i) ∧ m.binding i = .none

/-- The socket calls of session `i`. -/
inductive CallsOf (i : ι) : List (MachineAct ι) → List Ev → Prop
  | nil : CallsOf i [] []
  | own {as : List (MachineAct ι)} {evs : List Ev} (ev : Ev) (t : CallsOf i as evs) : CallsOf i (.call i ev :: as) (ev :: evs)
  | other {as : List (MachineAct ι)} {evs : List Ev} (j : ι) (ev : Ev) (ne : j ≠ i) (t : CallsOf i as evs) :
      CallsOf i (.call j ev :: as) evs
  | bytes {as : List (MachineAct ι)} {evs : List Ev} (j : ι) (b : Bytes) (t : CallsOf i as evs) :
      CallsOf i (.bytes j b :: as) evs
  | datagram {as : List (MachineAct ι)} {evs : List Ev} (to : Addressee ι) (sender : Endpoint) (b : Bytes)
      (t : CallsOf i as evs) : CallsOf i (.datagram to sender b :: as) evs

/-- `as` is what happens to the sockets of session `i` when `l` happens on the machine: its calls, the bytes of its
connection, and some of the datagrams (those it takes). -/
inductive SeenBy (i : ι) : List (MachineAct ι) → List NetAct → Prop
  | nil : SeenBy i [] []
  | call {l : List (MachineAct ι)} {as : List NetAct} (ev : Ev) (t : SeenBy i l as) :
      SeenBy i (.call i ev :: l) (.call ev :: as)
  | bytes {l : List (MachineAct ι)} {as : List NetAct} (b : Bytes) (t : SeenBy i l as) :
      SeenBy i (.bytes i b :: l) (.bytes b :: as)
  | datagram {l : List (MachineAct ι)} {as : List NetAct} (to : Addressee ι) (sender : Endpoint) (b : Bytes)
      (t : SeenBy i l as) : SeenBy i (.datagram to sender b :: l) (.datagram sender b :: as)
  | otherCall {l : List (MachineAct ι)} {as : List NetAct} (j : ι) (ev : Ev) (ne : j ≠ i) (t : SeenBy i l as) :
      SeenBy i (.call j ev :: l) as
  | otherBytes {l : List (MachineAct ι)} {as : List NetAct} (j : ι) (b : Bytes) (ne : j ≠ i) (t : SeenBy i l as) :
      SeenBy i (.bytes j b :: l) as
  | otherDatagram {l : List (MachineAct ι)} {as : List NetAct} (to : Addressee ι) (sender : Endpoint) (b : Bytes)
      (t : SeenBy i l as) : SeenBy i (.datagram to sender b :: l) as

/-- The local endpoints of the sessions: no two of them clash. -/
def Machine.Apart (m : Machine ι) : Prop :=
  ∀ i j, i ≠ j → ¬ Clash (m.sockets i).udp.localEndpoint (m.sockets j).udp.localEndpoint

/-- `l` runs through what each session does alone (`as i` for session `i`), in any order between the sessions. -/
inductive Interleaves : (ι → List NetAct) → List (ι × NetAct) → Prop
  | nil : Interleaves (fun _ => []) []
  | cons {as as' : ι → List NetAct} {l : List (ι × NetAct)} (i : ι) (a : NetAct) (head : as i = a :: as' i)
      (others : ∀ j, j ≠ i → as j = as' j) (t : Interleaves as' l) : Interleaves as ((i, a) :: l)

/-- The machine's view of what happens to a session: a datagram has some address. -/
inductive Realises : List (ι × NetAct) → List (MachineAct ι) → Prop
  | nil : Realises [] []
  | call {l : List (ι × NetAct)} {as : List (MachineAct ι)} (i : ι) (ev : Ev) (t : Realises l as) :
      Realises ((i, .call ev) :: l) (.call i ev :: as)
  | bytes {l : List (ι × NetAct)} {as : List (MachineAct ι)} (i : ι) (b : Bytes) (t : Realises l as) :
      Realises ((i, .bytes b) :: l) (.bytes i b :: as)
  | datagram {l : List (ι × NetAct)} {as : List (MachineAct ι)} (i : ι) (to : Addressee ι) (sender : Endpoint) (b : Bytes)
      (t : Realises l as) : Realises ((i, .datagram sender b) :: l) (.datagram to sender b :: as)

/-- A call on session `i` while no other session makes socket calls; things may arrive for all of them. -/
def MachineCall (dns : String → String → List Endpoint) (m : Machine ι) (i : ι) (w : World) (op : Op) (r : Res Unit)
    (m' : Machine ι) (w' : World) : Prop :=
  ∃ as l, NetStep dns (m.sockets i) w op r as (m'.sockets i) w' ∧ MachineRun dns m l m' ∧ SeenBy i l as ∧
    ∀ j, j ≠ i → ∀ ev, .call j ev ∉ l

end Eip.Spec
