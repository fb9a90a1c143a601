import Verif.Spec.Connections
/-
A device at the other end of the control connection, as the protocol prescribes it, in terms of the bytes of requests and
replies; and what its user should see.
-/
namespace Eip.Spec
open Eip

/-- A connection as the device knows it: the ids chosen for it and the three numbers that name it. -/
structure DeviceConn where
  oToT : UInt32
  tToO : UInt32
  sn : UInt16
  vendor : UInt16
  originator : UInt32
  deriving DecidableEq, Repr

/-- The bytes that name a connection in requests. -/
def DeviceConn.name (c : DeviceConn) : Bytes := triad c.sn c.vendor c.originator

/-- A device: the handle of the registered session (0: none), its attributes, which values can be written to which
attribute, which forward open requests it grants, and the open connections. -/
structure Device where
  handle : UInt32
  attr : UInt8 → UInt8 → UInt8 → Option Bytes
  writable : UInt8 → UInt8 → UInt8 → Bytes → Bool
  grants : Bytes → Bool
  conns : List DeviceConn

/-- The device with another value for one attribute. -/
def Device.store (d : Device) (x y z : UInt8) (bs : Bytes) : Device :=
  { d with attr := fun x' y' z' => if x' = x ∧ y' = y ∧ z' = z then some bs else d.attr x' y' z' }

/-- No attribute is ever empty, and connections have different names. -/
structure Device.Sound (d : Device) : Prop where
  nonempty : ∀ x y z, d.attr x y z ≠ some []
  writes : ∀ x y z, d.writable x y z [] = false
  names : (d.conns.map DeviceConn.name).Nodup

/-- A device that can always answer: its attributes fit into a reply of 4096 bytes, and it grants connections only to
requests that name one. -/
structure Device.Able (d : Device) : Prop where
  short : ∀ x y z v, d.attr x y z = some v → v.length ≤ 4000
  shortWrites : ∀ x y z bs, d.writable x y z bs = true → bs.length ≤ 4000
  named : ∀ body, d.grants body = true → (triadOf body).length = 8

/-- The frame of a request to read an attribute. -/
def readFrame (handle : UInt32) (x y z : UInt8) : Bytes :=
  command handle 0x0E [.class' x, .instance' y, .attribute z] []

/-- The frame of a request to write an attribute. -/
def writeFrame (handle : UInt32) (x y z : UInt8) (bs : Bytes) : Bytes :=
  command handle 0x10 [.class' x, .instance' y, .attribute z] bs

/-- The frame of a large forward open request. -/
def openFrame (handle : UInt32) (body : Bytes) : Bytes := command handle 0x5B [.class' 6, .instance' 1] body

/-- The frame of a forward close request. -/
def closeFrame (handle : UInt32) (body : Bytes) : Bytes := command handle 0x4E [.class' 6, .instance' 1] body

/-- The requests for which it is prescribed how a device in state `d` answers. -/
def Understood (d : Device) (request : Bytes) : Prop :=
  (d.handle = 0 ∧ (request = registration ∨ ∃ service segs data, request = command 0 service segs data)) ∨
  (d.handle ≠ 0 ∧ ((∃ x y z, request = readFrame d.handle x y z) ∨ (∃ x y z bs, request = writeFrame d.handle x y z bs) ∨
    (∃ body, request = openFrame d.handle body) ∨ (∃ body, request = closeFrame d.handle body)))

/-- The device in state `d` may answer `request` with `reply` and go on in state `d'`. Anything can happen after a
request that is not understood. -/
inductive Serves (d : Device) : Bytes → Bytes → Device → Prop
  | register (reply : Bytes) (handle : UInt32) (free : d.handle = 0) (nz : handle ≠ 0)
      (h : Packet reply 0x0065 handle (register 1 0)) : Serves d registration reply { d with handle := handle }
  | registerRefused (reply payload : Bytes) (free : d.handle = 0) (h : Packet reply 0x0065 0 payload) :
      Serves d registration reply d
  | noSession (reply : Bytes) (service : UInt8) (segs : List Segment) (data : Bytes) (none : d.handle = 0)
      (h : Packet reply 0x006F 0 []) : Serves d (command 0 service segs data) reply d
  | read (x y z : UInt8) (reply v : Bytes) (hd : d.handle ≠ 0) (hv : d.attr x y z = some v)
      (h : Response d.handle reply 0x8E 0 v) : Serves d (readFrame d.handle x y z) reply d
  | readRefused (x y z : UInt8) (reply data : Bytes) (status : UInt8) (hd : d.handle ≠ 0)
      (hv : d.attr x y z = none) (bad : status ≠ 0) (h : Response d.handle reply 0x8E status data) :
      Serves d (readFrame d.handle x y z) reply d
  | write (x y z : UInt8) (bs reply data : Bytes) (hd : d.handle ≠ 0) (hw : d.writable x y z bs = true)
      (h : Response d.handle reply 0x90 0 data) : Serves d (writeFrame d.handle x y z bs) reply (d.store x y z bs)
  | writeRefused (x y z : UInt8) (bs reply data : Bytes) (status : UInt8) (hd : d.handle ≠ 0)
      (hw : d.writable x y z bs = false) (bad : status ≠ 0) (h : Response d.handle reply 0x90 status data) :
      Serves d (writeFrame d.handle x y z bs) reply d
  | connect (body reply data : Bytes) (c : DeviceConn) (oApi tApi : UInt32) (hd : d.handle ≠ 0)
      (hn : triadOf body = c.name) (hg : d.grants body = true) (new : ∀ c' ∈ d.conns, c'.name ≠ c.name)
      (h : Response d.handle reply 0xDB 0 data) (ho : OpenReply data c.oToT c.tToO c.sn c.vendor c.originator oApi tApi) :
      Serves d (openFrame d.handle body) reply { d with conns := d.conns ++ [c] }
  | connectRefused (body reply data : Bytes) (status : UInt8) (hd : d.handle ≠ 0)
      (hg : d.grants body = false ∨ ∃ c ∈ d.conns, c.name = triadOf body) (bad : status ≠ 0)
      (h : Response d.handle reply 0xDB status data) : Serves d (openFrame d.handle body) reply d
  | disconnect (body reply data : Bytes) (c : DeviceConn) (hd : d.handle ≠ 0) (hc : c ∈ d.conns)
      (hn : (body.drop 2).take 8 = c.name) (h : Response d.handle reply 0xCE 0 data)
      (ho : CloseReply data c.sn c.vendor c.originator) :
      Serves d (closeFrame d.handle body) reply { d with conns := d.conns.erase c }
  | disconnectRefused (body reply data : Bytes) (status : UInt8) (hd : d.handle ≠ 0)
      (hn : ∀ c ∈ d.conns, c.name ≠ (body.drop 2).take 8) (bad : status ≠ 0)
      (h : Response d.handle reply 0xCE status data) : Serves d (closeFrame d.handle body) reply d

  | other (request reply : Bytes) (d' : Device) (h : ¬ Understood d request) : Serves d request reply d'

/-- The socket calls recorded in a trace all succeed, and what is received on the control socket is what the device
answers to what was sent on it. A request to unregister is not answered; the device ends up in any state after another
request for which no answer is awaited. Nothing is required of the IO socket. -/
inductive DeviceTrace : Device → List Ev → Device → Prop
  | nil (d : Device) : DeviceTrace d [] d
  | exchange {d d1 d' : Device} {request reply : Bytes} {rest : List Ev} (h : Serves d request reply d1)
      (more : DeviceTrace d1 rest d') :
      DeviceTrace d (.sent .tcp request true :: .received .tcp reply true :: rest) d'
  | unregister {d d' : Device} {rest : List Ev} (more : DeviceTrace { d with handle := 0, conns := [] } rest d') :
      DeviceTrace d (.sent .tcp (request 0x66 d.handle []) true :: rest) d'
  | unanswered {d d1 d' : Device} {b : Bytes} {rest : List Ev} (h : b ≠ request 0x66 d.handle [])
      (more : DeviceTrace d1 rest d') : DeviceTrace d (.sent .tcp b true :: rest) d'
  | opened {d d' : Device} {rest : List Ev} (s : Sock) (host port : String) (more : DeviceTrace d rest d') :
      DeviceTrace d (.opened s host port true :: rest) d'
  | closed {d d' : Device} {rest : List Ev} (s : Sock) (more : DeviceTrace d rest d') :
      DeviceTrace d (.closed s true :: rest) d'
  | ioSent {d d' : Device} {rest : List Ev} (bytes : Bytes) (ok : Bool) (more : DeviceTrace d rest d') :
      DeviceTrace d (.sent .io bytes ok :: rest) d'
  | ioReceived {d d' : Device} {rest : List Ev} (bytes : Bytes) (ok : Bool) (more : DeviceTrace d rest d') :
      DeviceTrace d (.received .io bytes ok :: rest) d'

/-- What a user does with a session. Attributes are read as raw bytes; the object written has the encoding `bs`. -/
inductive Use
  | «open» (host port ioPort : String)
  | close
  | read (x y z : UInt8)
  | write (x y z : UInt8) (o : Obj) (bs : Bytes)
  | connect (oToT tToO : ConnectionInfo)
  | disconnect (n : Nat)
  | sendIO (pkt : CPFPacket)
  | receiveIO

/-- What the user gets: an attribute, the number of a connection, a normal return, or `runtime_error`. -/
inductive Outcome
  | bytes (bs : Bytes)
  | number (n : Int)
  | done
  | refused
  | other
  deriving DecidableEq

/-- What the user of a device in state `d` should see, and the state of the device afterwards. -/
inductive Should (d : Device) : Use → Outcome → Device → Prop
  | opened (host port ioPort : String) (handle : UInt32) (free : d.handle = 0) (nz : handle ≠ 0) :
      Should d (.open host port ioPort) .done { d with handle := handle }
  | openRefused (host port ioPort : String) : Should d (.open host port ioPort) .refused d
  | closed : Should d .close .done { d with handle := 0, conns := [] }
  | read (x y z : UInt8) (v : Bytes) (hd : d.handle ≠ 0) (hv : d.attr x y z = some v) :
      Should d (.read x y z) (.bytes v) d
  | readRefused (x y z : UInt8) (h : d.handle = 0 ∨ d.attr x y z = none) : Should d (.read x y z) .refused d
  | written (x y z : UInt8) (o : Obj) (bs : Bytes) (hd : d.handle ≠ 0) (hw : d.writable x y z bs = true) :
      Should d (.write x y z o bs) .done (d.store x y z bs)
  | writeRefused (x y z : UInt8) (o : Obj) (bs : Bytes) (h : d.handle = 0 ∨ d.writable x y z bs = false) :
      Should d (.write x y z o bs) .refused d
  | connected (oToT tToO : ConnectionInfo) (body : Bytes) (c : DeviceConn) (hd : d.handle ≠ 0)
      (hg : d.grants body = true) (hn : triadOf body = c.name) (new : ∀ c' ∈ d.conns, c'.name ≠ c.name) :
      Should d (.connect oToT tToO) (.number d.conns.length) { d with conns := d.conns ++ [c] }
  | connectRefused (oToT tToO : ConnectionInfo) (body : Bytes)
      (h : d.handle = 0 ∨ d.grants body = false ∨ ∃ c ∈ d.conns, c.name = triadOf body) :
      Should d (.connect oToT tToO) .refused d
  | disconnected (n : Nat) (hd : d.handle ≠ 0) (hn : n < d.conns.length) :
      Should d (.disconnect n) .done { d with conns := d.conns.eraseIdx n }
  | disconnectRefused (n : Nat) (h : d.handle = 0) : Should d (.disconnect n) .refused d
  | sendIO (pkt : CPFPacket) (o : Outcome) : Should d (.sendIO pkt) o d
  | receiveIO (o : Outcome) : Should d .receiveIO o d

/-- The same for a sequence of uses. -/
inductive ShouldAll : Device → List (Use × Outcome) → Device → Prop
  | nil (d : Device) : ShouldAll d [] d
  | cons {d d1 d' : Device} {u : Use} {o : Outcome} {rest : List (Use × Outcome)} (h : Should d u o d1)
      (more : ShouldAll d1 rest d') : ShouldAll d ((u, o) :: rest) d'

/-- What the user sees of the result of a call. -/
def outcomeOf {α : Type} (f : α → Outcome) : Res α → Outcome
  | .ok a => f a
  | .throw e => if e.kind = .runtimeError then .refused else .other
  | .ub _ => .other

/-- Carrying out a use of the session. -/
def Use.run (w : World) : Use → Outcome × World
  | .open host port ioPort => Prod.map (outcomeOf fun _ => .done) id (Session.open host port ioPort w)
  | .close => Prod.map (outcomeOf fun _ => .done) id (Session.close w)
  | .read x y z =>
    match Session.getSingleAttributeSerializable SerializableBuffer.cls x y z (⟨[]⟩, w) with
    | (r, (b, w')) => (outcomeOf (fun _ => .bytes b.data) r, w')
  | .write x y z o _ => Prod.map (outcomeOf fun _ => .done) id (Session.setSingleAttributeSerializable x y z (some o) w)
  | .connect oToT tToO => Prod.map (outcomeOf .number) id (Session.createConnection oToT tToO w)
  | .disconnect n => Prod.map (outcomeOf fun _ => .done) id (Session.closeConnection n w)
  | .sendIO pkt => Prod.map (outcomeOf fun _ => .done) id (Session.sendIOPacket pkt w)
  | .receiveIO => Prod.map (outcomeOf fun _ => .done) id (Session.receiveIOPacket w)

/-- Carrying out one use after the other, whatever their outcomes. -/
def runUses : List Use → World → List (Use × Outcome) × World
  | [], w => ([], w)
  | u :: us, w => Prod.map ((u, (u.run w).1) :: ·) id (runUses us (u.run w).2)

/-- What is asked of the user: open a session only once, close all connections before the session, use valid connection
numbers, and write objects that can be serialized. -/
def Use.Tidy (w : World) : Use → Prop
  | .open .. => w.s.sessionId = 0
  | .close => w.s.connections = []
  | .write _ _ _ o bs => Encodes o bs
  | .connect .. => w.s.connections.length < 2147483648
  | .disconnect n => n < w.s.connections.length
  | _ => True

/-- The same along a sequence of uses. -/
def TidyUses : List Use → World → Prop
  | [], _ => True
  | u :: us, w => u.Tidy w ∧ TidyUses us (u.run w).2

/-- The connection as the device knows it. -/
def viewOf (c : Connection) : DeviceConn :=
  ⟨c.oToTConnectionId, c.tToOConnectionId, c.connectionSn, c.originatorVendorId, c.originatorSn⟩

/-- Session and device agree on the session handle and on the open connections. -/
structure Agree (s : Session) (d : Device) : Prop where
  handle : s.sessionId = d.handle
  conns : s.connections.map viewOf = d.conns

end Eip.Spec
