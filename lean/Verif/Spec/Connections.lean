import Verif.Spec.Ops
/-
Forward open and forward close requests, recognised by their bytes on the wire.

A send-RR-data frame has command 0x6F (bytes 0-1) and, after 24 bytes of header and 16 bytes of RR data, the service
code of the message router request at byte 40. Requests to the connection manager (class 6, instance 1) have a path of
1 + 4 bytes, so that the body of the request starts at byte 46.
-/
namespace Eip.Spec
open Eip

/-- The body of the request to the connection manager with the given service in a frame, if it is one. -/
def managerBody (service : UInt8) (bytes : Bytes) : Option Bytes :=
  if bytes.take 2 = [0x6F, 0] ∧ bytes[40]? = some service then some (bytes.drop 46) else none

/-- The body of a (large) forward open request in an event, if it is one. -/
def openRequest : Ev → Option Bytes
  | .sent .tcp bytes _ => managerBody 0x5B bytes
  | _ => none

/-- All forward open requests sent, in order. -/
def openRequests (evs : List Ev) : List Bytes := evs.filterMap openRequest

/-- The originator to target connection id in a forward open request. -/
def oToTOf (body : Bytes) : Bytes := (body.drop 2).take 4
/-- The target to originator connection id in a forward open request. -/
def tToOOf (body : Bytes) : Bytes := (body.drop 6).take 4
/-- The connection serial number in a forward open request. -/
def serialOf (body : Bytes) : Bytes := (body.drop 10).take 2
/-- Connection serial number, vendor id and originator serial number in a forward open request. -/
def triadOf (body : Bytes) : Bytes := (body.drop 10).take 8

/-- The three numbers that name a connection. -/
def triad (sn vendor : UInt16) (originator : UInt32) : Bytes := le 2 sn.toNat ++ le 2 vendor.toNat ++ le 4 originator.toNat

/-- Number of connection attempts in a history. -/
def attempts : List Op → Nat
  | [] => 0
  | .createConnection .. :: ops => attempts ops + 1
  | _ :: ops => attempts ops

end Eip.Spec
