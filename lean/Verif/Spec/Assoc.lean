import Mathlib.Logic.Function.Basic
import Verif.Model.Clarity

/-! # Finite maps and operation histories, the specification of `Tuple` -/

namespace Stacks.Spec
open Stacks.Clarity (CV)

/-- A finite map from keys to values. -/
abbrev CMap := Str → Option CV

/-- An operation on a tuple, with its arguments. -/
inductive TupleOp where
  | insert (key : Str) (value : CV)
  | remove (key : Str)
  | set (key : Str) (value : CV)

/-- The effect on a finite map: `set` (assignment through `get_mut`) only changes present keys. -/
def CMap.apply (m : CMap) : TupleOp → CMap
  | .insert k v => Function.update m k (some v)
  | .remove k => Function.update m k none
  | .set k v => Function.update m k ((m k).map fun _ => v)

/-- Every insertion of the history uses a key absent at that point. -/
def FreshInserts (m : CMap) : List TupleOp → Prop
  | [] => True
  | op :: ops => (∀ k v, op = .insert k v → m k = none) ∧ FreshInserts (m.apply op) ops

end Stacks.Spec
