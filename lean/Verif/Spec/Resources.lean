import Verif.Spec.Clarity

/-! # How deeply values nest -/

namespace Stacks.Spec
open Stacks.Clarity (CV)

mutual
/-- The nesting depth of a value: 1 without elements, else one more than the deepest element. -/
def depth : CV → Nat
  | .respOk v | .respErr v | .optSome v => 1 + depth v
  | .list vs | .fnArgs vs => 1 + depthAll vs
  | .tuple es => 1 + depthEntries es
  | .int _ | .uint _ | .buffer _ | .tru | .fls | .principalStd _ | .principalCon _ _ | .optNone | .strAscii _
  | .strUtf8 _ | .lps _ => 1
/-- The depth of the deepest element, 0 if there is none. -/
def depthAll : List CV → Nat
  | [] => 0
  | v :: vs => max (depth v) (depthAll vs)
/-- The same for entries. -/
def depthEntries : List (Str × CV) → Nat
  | [] => 0
  | (_, v) :: es => max (depth v) (depthEntries es)
end

/-- The bytes of `k` lists of one element each, around `none`. -/
def nestedBytes : Nat → Bytes
  | 0 => [0x09]
  | k + 1 => [0x0b, 0, 0, 0, 1] ++ nestedBytes k

end Stacks.Spec
