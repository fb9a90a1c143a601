import Verif.Spec.Memory
/-
What raw buffers show (C117) and what operations on them leave alone (C118).
-/
namespace Eip.Spec

/-- The bytes raw buffer `x` refers to at this moment; `none` if it does not exist or its memory is gone. -/
def shows (m : Mem) (x : Nat) : Option Bytes :=
  match m.bufs[x]? with
  | some (some sb) => m.heap.contents sb.data
  | _ => none

/-- What an operation should do, given the memory before it: its result and what the buffer it works on then shows. A
buffer reader provides all bytes asked for or the call throws; a stream provides what it has, and the rest of the
destination stays as it was (or as it was allocated, when the destination had another size). -/
def Right (m : Mem) (op : BufOp) (res : Res Unit × Mem) : Prop :=
  match op with
  | .alloc bs => res.1 = .ok () ∧ res.2.heap.contents ⟨m.heap.blocks.length, 0, bs.length⟩ = some bs
  | .release _ => res.1 = .ok ()
  | .new => res.1 = .ok () ∧ shows res.2 m.bufs.length = some []
  | .newOn r => res.1 = .ok () ∧ shows res.2 m.bufs.length = m.heap.contents r
  | .copy x => ∀ old, shows m x = some old → res.1 = .ok () ∧ shows res.2 m.bufs.length = some old
  | .assign x y => ∀ old new, shows m x = some old → shows m y = some new → res.1 = .ok () ∧ shows res.2 x = some new
  | .assignRef x r | .setData x r => ∀ old, shows m x = some old → res.1 = .ok () ∧ shows res.2 x = m.heap.contents r
  | .parse x n r => ∀ old new, shows m x = some old → m.heap.contents r = some new →
      if n ≤ new.length then res.1 = .ok () ∧ shows res.2 x = some (new.take n)
      else res = (.throw (lengthError "Buffer too small to deserialize value"), m)
  | .parseStream x n junk input => ∀ old, shows m x = some old → res.1 = .ok () ∧
      shows res.2 x = some (input.take n ++ (if n = old.length then old else List.replicate n junk).drop input.length)
  | .fill x r => ∀ old new, shows m x = some old → m.heap.contents r = some new →
      if old.length ≤ new.length then res.1 = .ok () ∧ shows res.2 x = some (new.take old.length)
      else res = (.throw (lengthError "Buffer too small to deserialize value"), m)
  | .fillStream x input => ∀ old, shows m x = some old → res.1 = .ok () ∧
      shows res.2 x = some (input.take old.length ++ old.drop input.length)
  | .read _ => res = (.ok (), m)
  | .destroy x => res.1 = .ok () ∧ shows res.2 x = none

/-- The raw buffer an operation works on. -/
def target : BufOp → Option Nat
  | .assign x _ | .assignRef x _ | .setData x _ | .parse x _ _ | .parseStream x _ _ _ | .fill x _ | .fillStream x _
  | .destroy x => some x
  | .alloc _ | .release _ | .new | .newOn _ | .copy _ | .read _ => none

/-- The operation stores into the memory its raw buffer refers to: a read without a length, or from a stream with just
the length the buffer has. -/
def StoresThrough (m : Mem) : BufOp → Prop
  | .fill _ _ | .fillStream _ _ => True
  | .parseStream x n _ _ => ∃ sb, m.bufs[x]? = some (some sb) ∧ n = sb.data.len
  | _ => False

/-- Two references have no byte in common. -/
def Apart (q r : Ref) : Prop :=
  q.len = 0 ∨ q.block ≠ r.block ∨ q.off + q.len ≤ r.off ∨ r.off + r.len ≤ q.off

/-- The operation does not store into any byte of `q`. -/
def Spares (m : Mem) (op : BufOp) (q : Ref) : Prop :=
  StoresThrough m op → ∀ x sb, target op = some x → m.bufs[x]? = some (some sb) → Apart q sb.data

/-- The operation does not free block `b` at the user's request. -/
def Keeps (op : BufOp) (b : Nat) : Prop := op ≠ .release b

end Eip.Spec
