import Verif.Spec.Calls
/-
What the user of a `Connection` object can do to its path.
-/
namespace Eip.Spec

/-- A call of `setConnectionPoints`, or a call on the path returned by `getPath`. -/
inductive ConnCall
  | points (origin target : UInt8)
  | path (call : PathCall)
  deriving DecidableEq, Repr

/-- The segments of the path after the calls: connection points replace whatever was there. -/
def connSegments : List ConnCall → List Segment → List Segment
  | [], segs => segs
  | .points o t :: cs, _ => connSegments cs [.class' 4, .instance' 1, .connectionPoint o, .connectionPoint t]
  | .path c :: cs, segs => connSegments cs (segmentsAfter [c] segs)

/-- Whether the path has a pad byte after the calls: only `setPadAfterLength` matters. -/
def connPad : List ConnCall → Bool → Bool
  | [], pad => pad
  | .points _ _ :: cs, pad => connPad cs pad
  | .path c :: cs, pad => connPad cs (padAfter [c] pad)

end Eip.Spec
