import Verif.Model.Clarity

/-! # Values of each type as values of any type -/

namespace Stacks.Clarity

/-- The boxed value with concrete type `k` wrapping `x`. -/
def Kind.box : (k : Kind) → k.Val → CV
  | .int, x => .int x
  | .uint, x => .uint x
  | .buffer, x => .buffer x
  | .tru, _ => .tru
  | .fls, _ => .fls
  | .principalStd, x => .principalStd x
  | .principalCon, x => .principalCon x.1 x.2
  | .respOk, x => .respOk x
  | .respErr, x => .respErr x
  | .optNone, _ => .optNone
  | .optSome, x => .optSome x
  | .list, x => .list x
  | .tuple, x => .tuple x
  | .strAscii, x => .strAscii x
  | .strUtf8, x => .strUtf8 x
  | .lps, x => .lps x
  | .fnArgs, x => .fnArgs x

end Stacks.Clarity
