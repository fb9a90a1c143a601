import Verif.Model.Serializable
/-
path.h, src/path.cpp
-/
namespace Eip

/-- `Path` (path.h:50-179): `pad_after_length_` and `path_buf_` (lines 170-171). -/
structure Path where
  padAfterLength : Bool
  buf : Bytes
  deriving DecidableEq, Repr

namespace Path

/-- `addSegment` (src/path.cpp:53-57). -/
def addSegment (p : Path) (type data : UInt8) : Path := { p with buf := p.buf ++ [type, data] }
/-- `addLogicalClass` (src/path.cpp:59-62). -/
def addLogicalClass (p : Path) (id : UInt8) : Path := p.addSegment 0x20 id
/-- `addLogicalInstance` (src/path.cpp:64-67). -/
def addLogicalInstance (p : Path) (id : UInt8) : Path := p.addSegment 0x24 id
/-- `addLogicalAttribute` (src/path.cpp:69-72). -/
def addLogicalAttribute (p : Path) (id : UInt8) : Path := p.addSegment 0x30 id
/-- `addLogicalConnectionPoint` (src/path.cpp:74-77). -/
def addLogicalConnectionPoint (p : Path) (id : UInt8) : Path := p.addSegment 0x2C id
/-- `reset` (path.h:120-123). -/
def reset (p : Path) : Path := { p with buf := [] }
/-- `setPadAfterLength` (path.h:88-91). -/
def setPadAfterLength (p : Path) (pad : Bool) : Path := { p with padAfterLength := pad }

/-- `Path(bool)` (src/path.cpp:32-35). -/
def mk0 (pad : Bool := false) : Path := ⟨pad, []⟩
/-- `Path(class, instance, attribute, pad)` (src/path.cpp:37-44). -/
def mk3 (c i a : UInt8) (pad : Bool := false) : Path :=
  (((mk0 pad).addLogicalClass c).addLogicalInstance i).addLogicalAttribute a
/-- `Path(class, instance)` (src/path.cpp:46-51). -/
def mk2 (c i : UInt8) : Path := ((mk0 false).addLogicalClass c).addLogicalInstance i

/-- `getLength` (src/path.cpp:79-82). -/
def getLength (p : Path) : Nat := 1 + p.buf.length * 1 + (if p.padAfterLength then 1 else 0)

/-- `serialize(Writer&, bool)` (src/path.cpp:84-95): `EIP_USINT length = path_buf_.size() / 2` keeps the low
eight bits. -/
def serializePad (p : Path) (pad : Bool) : Prog Writer Unit := do
  Writer.write8 (UInt8.ofNat (p.buf.length / 2))
  if pad then Writer.write8 0 else pure ()
  Writer.writeBuffer p.buf

/-- `serialize(Writer&)` (path.h:137-141). -/
def serialize (p : Path) : Prog Writer Unit := p.serializePad p.padAfterLength

end Path
end Eip
