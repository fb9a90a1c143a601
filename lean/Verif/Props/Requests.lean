import Verif.Spec.Requests
import Verif.Props.Wire
/-
C88-C90: connection requests built by the user.
-/
namespace Eip
open Spec

/-! ### C88 -/

/-- The calls of `Spec.ConnCall` on a connection object. -/
def runConnCall (c : Connection) : ConnCall → Connection
  | .points o t => c.setConnectionPoints o t
  | .path call => { c with path := runPathCall c.path call }

theorem runConnCalls (calls : List ConnCall) (c : Connection) (pad : Bool) (segs : List Segment)
    (h : PathIs c.path pad segs) :
    ∃ p, calls.foldl runConnCall c = { c with path := p } ∧ PathIs p (connPad calls pad) (connSegments calls segs) := by
  induction calls generalizing c pad segs with
  | nil => exact ⟨c.path, rfl, h⟩
  | cons call calls ih =>
    cases call with
    | points o t => exact ih (c.setConnectionPoints o t) pad _ ⟨h.1, rfl⟩
    | path call =>
      exact ih { c with path := runPathCall c.path call } _ _ (pathIs_run [call] c.path pad segs h)

theorem userClose_writes (r : ForwardCloseRequest) (pad : Bool) (segs : List Segment) (h : PathIs r.path pad segs) :
    Writes r.serialize (forwardClose r.timeoutTickSize r.timeoutTicks r.connectionSn r.originatorVendorId r.originatorSn
      (path true segs)) := by
  have e : path true segs = le 1 (r.path.buf.length / 2) ++ [0] ++ r.path.buf := by
    rw [← pathBytes_eq (p := ⟨true, r.path.buf⟩) ⟨rfl, h.2⟩]
    rfl
  rw [e]
  exact r.writes

theorem userClose_encodes (r : ForwardCloseRequest) (segs : List Segment) (h : PathIs r.path false segs) :
    Encodes r.obj (forwardClose r.timeoutTickSize r.timeoutTicks r.connectionSn r.originatorVendorId r.originatorSn
      (path true segs)) where
  writes := userClose_writes r false segs h
  length := by
    rw [← pathBytes_eq (p := ⟨true, r.path.buf⟩) ⟨rfl, h.2⟩]
    exact (ForwardCloseRequest.encodes r h.1).length

/-- C88. Whatever values the fields of a connection object have, and whatever is done to its path, the forward open
request it creates has exactly those values and that path. -/
theorem c88_open_request (c : Connection) (pad : Bool) (segs : List Segment) (hp : PathIs c.path pad segs)
    (calls : List ConnCall) :
    ∃ oParams tParams : UInt32, oParams.toNat = connParams c.oToTBufferSize.toNat false 2 2 false ∧
      tParams.toNat = connParams c.tToOBufferSize.toNat true 2 2 false ∧
      Encodes (calls.foldl runConnCall c).createForwardOpenRequest.obj
        (forwardOpen c.timeoutTickSize c.timeoutTicks c.oToTConnectionId c.tToOConnectionId c.connectionSn
          c.originatorVendorId c.originatorSn c.timeoutMultiplyer c.oToTRpi oParams c.tToORpi tParams 1
          (path (connPad calls pad) (connSegments calls segs))) := by
  obtain ⟨p, e, h⟩ := runConnCalls calls c pad segs hp
  refine ⟨ForwardOpenRequest.calcConnectionParams c.oToTBufferSize false 2 2 false,
    ForwardOpenRequest.calcConnectionParams c.tToOBufferSize true 2 2 false, c11_packed_word .., c11_packed_word .., ?_⟩
  rw [← pathBytes_eq h, e]
  exact ForwardOpenRequest.encodes _

/-- C88. The forward close request has the values of the connection object; its path is always that of the connection
manager, whatever is done to the path of the connection. -/
theorem c88_close_request (c : Connection) (calls : List ConnCall) :
    Encodes (calls.foldl runConnCall c).createForwardCloseRequest.obj
      (forwardClose c.timeoutTickSize c.timeoutTicks c.connectionSn c.originatorVendorId c.originatorSn
        (path true [.class' 2, .instance' 1])) := by
  have : ∀ calls : List ConnCall, ∃ p, calls.foldl runConnCall c = { c with path := p } := by
    intro calls
    suffices ∀ q, ∃ p, calls.foldl runConnCall { c with path := q } = { c with path := p } from this c.path
    induction calls with
    | nil => exact fun q => ⟨q, rfl⟩
    | cons call calls ih =>
      intro q
      cases call with
      | points o t => exact ih _
      | path call => exact ih _
  obtain ⟨p, e⟩ := this calls
  rw [e]
  exact userClose_encodes ({ c with path := p } : Connection).createForwardCloseRequest [.class' 2, .instance' 1] ⟨rfl, rfl⟩

/-- C88. A new connection object has the path to its two assemblies. -/
theorem c88_new (o t : ConnectionInfo) :
    PathIs (Connection.new o t).path false
      [.class' 4, .instance' 1, .connectionPoint o.assemblyId, .connectionPoint t.assemblyId] := ⟨rfl, rfl⟩

/-- Connection points set twice, with a segment added in between. -/
example : connSegments [.points 1 2, .path (.add (.attribute 3)), .points 5 6] [.class' 9] =
    [.class' 4, .instance' 1, .connectionPoint 5, .connectionPoint 6] ∧
    connSegments [.points 1 2, .path (.add (.attribute 3))] [.class' 9] =
    [.class' 4, .instance' 1, .connectionPoint 1, .connectionPoint 2, .attribute 3] := by decide

/-! ### C89 -/

/-- C89 in full: forward close requests with any path, including one with the pad flag. -/
def CloseRequestsReportTrueLengths : Prop :=
  ∀ (r : ForwardCloseRequest) (pad : Bool) (segs : List Segment), PathIs r.path pad segs →
    Encodes r.obj (forwardClose r.timeoutTickSize r.timeoutTicks r.connectionSn r.originatorVendorId r.originatorSn
      (path true segs))

/-- C89 is false for every path with the pad flag: the pad byte is counted twice, so the request reports one byte more
than it writes, and the data sent ends with a byte that is not part of the request. -/
theorem c89_violated : ¬ CloseRequestsReportTrueLengths ∧
    ∀ (r : ForwardCloseRequest) (segs : List Segment), PathIs r.path true segs →
      let bs := forwardClose r.timeoutTickSize r.timeoutTicks r.connectionSn r.originatorVendorId r.originatorSn
        (path true segs)
      Writes r.serialize bs ∧ r.getLength = bs.length + 1 ∧
      r.serialize (.buffer (BufferWriter.new (List.replicate r.getLength 0))) = (.ok (), .buffer ⟨bs, [0], bs.length⟩) := by
  have key : ∀ (r : ForwardCloseRequest) (segs : List Segment), PathIs r.path true segs →
      let bs := forwardClose r.timeoutTickSize r.timeoutTicks r.connectionSn r.originatorVendorId r.originatorSn
        (path true segs)
      Writes r.serialize bs ∧ r.getLength = bs.length + 1 ∧
      r.serialize (.buffer (BufferWriter.new (List.replicate r.getLength 0))) = (.ok (), .buffer ⟨bs, [0], bs.length⟩) := by
    intro r segs h bs
    have hw : Writes r.serialize bs := userClose_writes r true segs h
    have hl : r.getLength = bs.length + 1 := by
      have e : path true segs = le 1 (r.path.buf.length / 2) ++ [0] ++ r.path.buf := by
        rw [← pathBytes_eq (p := ⟨true, r.path.buf⟩) ⟨rfl, h.2⟩]
        rfl
      simp [bs, e, ForwardCloseRequest.getLength, Path.getLength, h.1, forwardClose]
      omega
    refine ⟨hw, hl, ?_⟩
    have := hw.fits (BufferWriter.new (List.replicate r.getLength 0)) (by simp [BufferWriter.new, hl])
    rw [this]
    simp [BufferWriter.new, hl]
  refine ⟨fun full => ?_, key⟩
  have h1 := (full ⟨0, 0, 0, 0, 0, Path.mk0 true⟩ true [] ⟨rfl, rfl⟩).length
  revert h1
  decide

/-- C89 (partial: paths without the pad flag). Missing: paths with it, for which it is false. -/
theorem c89_unpadded_partial (r : ForwardCloseRequest) (segs : List Segment) (h : PathIs r.path false segs) :
    Encodes r.obj (forwardClose r.timeoutTickSize r.timeoutTicks r.connectionSn r.originatorVendorId r.originatorSn
      (path true segs)) := userClose_encodes r segs h

/-- The path of the close requests of the library, and the same with the flag set. -/
example : PathIs (Path.mk2 2 1) false [.class' 2, .instance' 1] ∧
    PathIs ((Path.mk2 2 1).setPadAfterLength true) true [.class' 2, .instance' 1] := ⟨⟨rfl, rfl⟩, ⟨rfl, rfl⟩⟩

/-! ### C90 -/

/-- The size field of a connection parameter word. -/
def askedSize (params : UInt32) : Nat := params.toNat % 2 ^ 16

/-- C90 in full: the size asked for is the size given. -/
def SizesAreKept : Prop :=
  ∀ (c : Connection), askedSize c.createForwardOpenRequest.oToTConnParams = c.oToTBufferSize.toNat ∧
    askedSize c.createForwardOpenRequest.tToOConnParams = c.tToOBufferSize.toNat

theorem askedSize_eq (size : UInt16) (v : Bool) (p t : UInt8) (sh : Bool) :
    askedSize (ForwardOpenRequest.calcConnectionParams size v p t sh) = size.toNat % 2 ^ 15 := by
  have h := c11_fields_do_not_interfere size v p t sh
  have key : ∀ w s : Nat, w % 32768 = s → w / 32768 % 1024 = 0 → w % 65536 = s := by omega
  exact key _ _ h.1 h.2.1

/-- C90 is false for every size from 32768 on: the device is asked for 32768 bytes less. -/
theorem c90_violated : ¬ SizesAreKept ∧
    ∀ c : Connection, (32768 ≤ c.oToTBufferSize.toNat →
        askedSize c.createForwardOpenRequest.oToTConnParams = c.oToTBufferSize.toNat - 32768) ∧
      (32768 ≤ c.tToOBufferSize.toNat →
        askedSize c.createForwardOpenRequest.tToOConnParams = c.tToOBufferSize.toNat - 32768) := by
  have key : ∀ (x : UInt16), 32768 ≤ x.toNat → x.toNat % 2 ^ 15 = x.toNat - 32768 := by
    intro x h
    have := x.toNat_lt
    omega
  refine ⟨fun full => ?_, fun c => ⟨fun h => ?_, fun h => ?_⟩⟩
  · have h1 := (full (Connection.new ⟨1, 32768, 0⟩ ⟨1, 0, 0⟩)).1
    have h2 := (askedSize_eq (Connection.new ⟨1, 32768, 0⟩ ⟨1, 0, 0⟩).oToTBufferSize false 2 2 false).symm.trans h1
    exact absurd h2 (by decide)
  · exact (askedSize_eq ..).trans (key _ h)
  · exact (askedSize_eq ..).trans (key _ h)

/-- C90 (partial: sizes below 32768). Missing: larger sizes, for which it is false. -/
theorem c90_small_partial (c : Connection) :
    (c.oToTBufferSize.toNat < 32768 → askedSize c.createForwardOpenRequest.oToTConnParams = c.oToTBufferSize.toNat) ∧
    (c.tToOBufferSize.toNat < 32768 → askedSize c.createForwardOpenRequest.tToOConnParams = c.tToOBufferSize.toNat) :=
  ⟨fun h => (askedSize_eq ..).trans (Nat.mod_eq_of_lt h), fun h => (askedSize_eq ..).trans (Nat.mod_eq_of_lt h)⟩

example : (Connection.new ⟨0x71, 0, 0⟩ ⟨0x66, 576, 0⟩).tToOBufferSize.toNat < 32768 ∧
    32768 ≤ (Connection.new ⟨0x71, 40000, 0⟩ ⟨0x66, 576, 0⟩).oToTBufferSize.toNat := by decide

/-! ### C10 -/

/-- C10. The shortcut constructors. -/
theorem c10_shortcuts (c i a : UInt8) (pad : Bool) :
    Writes (Path.mk3 c i a pad).serialize (path pad [.class' c, .instance' i, .attribute a]) ∧
    (Path.mk3 c i a pad).getLength = (path pad [.class' c, .instance' i, .attribute a]).length ∧
    Writes (Path.mk2 c i).serialize (path false [.class' c, .instance' i]) ∧
    (Path.mk2 c i).getLength = (path false [.class' c, .instance' i]).length := by
  have e3 : pathBytes (Path.mk3 c i a pad) = path pad [.class' c, .instance' i, .attribute a] := pathBytes_eq ⟨rfl, rfl⟩
  have e2 : pathBytes (Path.mk2 c i) = path false [.class' c, .instance' i] := pathBytes_eq ⟨rfl, rfl⟩
  rw [← e3, ← e2]
  exact ⟨Path.writes _, Path.getLength_eq _, Path.writes _, Path.getLength_eq _⟩

end Eip
