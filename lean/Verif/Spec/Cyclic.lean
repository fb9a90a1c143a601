import Verif.Model.Session
import Verif.Spec.Wire
/-
What the two ends of an I/O connection do, in terms of the library's calls (C134). These are user programs, not
functions of the library.
-/
namespace Eip.Spec

/-- The packet number `k` of a producer: a sequenced address item with the connection id and the packet's number, and
a sequenced data item with the packet's number and the data `o`. -/
def ioPacket (connection : UInt32) (k : Nat) (o : Obj) : CPFPacket :=
  ⟨[⟨0x8002, some (SequencedAddressItem.obj ⟨connection, UInt32.ofNat k⟩)⟩,
    ⟨0xB1, some (SequencedDataItem.obj o (UInt16.ofNat k))⟩]⟩

/-- What a consumer makes of a packet: it is to have two items, which are read as a sequenced address and as sequenced
data, into the new objects `⟨0, 0⟩` and `SequencedDataItem.new fresh`. -/
def readPacket {τ : Type} (cls : Class τ) (fresh : τ) (p : CPFPacket) :
    Res (SequencedAddressItem × SequencedDataItem τ) :=
  match p.items with
  | [a, d] =>
    match a.getDataAs SequencedAddressItem.cls ⟨0, 0⟩ with
    | (.ok (), address) =>
      match d.getDataAs (SequencedDataItem.cls cls) (SequencedDataItem.new fresh) with
      | (.ok (), data) => .ok (address, data)
      | (.throw e, _) => .throw e
      | (.ub u, _) => .ub u
    | (.throw e, _) => .throw e
    | (.ub u, _) => .ub u
  | _ => .throw (lengthError "not two items")

/-- A consumer that receives `n` packets and reads each before it receives the next. -/
def consume {τ : Type} (cls : Class τ) (fresh : τ) :
    Nat → World → Res (List (SequencedAddressItem × SequencedDataItem τ))
  | 0, _ => .ok []
  | n + 1, w =>
    match Session.receiveIOPacket w with
    | (.ok p, w') =>
      match readPacket cls fresh p with
      | .ok x =>
        match consume cls fresh n w' with
        | .ok xs => .ok (x :: xs)
        | .throw e => .throw e
        | .ub u => .ub u
      | .throw e => .throw e
      | .ub u => .ub u
    | (.throw e, _) => .throw e
    | (.ub u, _) => .ub u

/-- `bytes` is what some session has put on the wire for `p`. -/
def SentAs (p : CPFPacket) (bytes : Bytes) : Prop :=
  ∃ (w w' : World) (s : Sock), Session.sendIOPacket p w = (.ok (), w') ∧ w'.trace = w.trace ++ [.sent s bytes true]

end Eip.Spec
