import Mathlib.Data.Nat.Digits.Defs

/-! # Positional numerals (independent of the model)

All digit lists are written most significant digit first. -/

namespace Stacks.Spec

/-- How many zeros the list starts with. -/
def leadingZeros (ds : List Nat) : Nat := (ds.takeWhile (· == 0)).length

/-- The number written by the digits `ds` in base `b`. -/
def numValue (b : Nat) (ds : List Nat) : Nat := ds.foldl (fun a d => a * b + d) 0

/-- The digits of `n` in base `b`, without leading zero (so none for `n = 0`). -/
def numDigits (b n : Nat) : List Nat := (Nat.digits b n).reverse

/-- Change of base from `b` to `c` keeping the number of leading zeros: as many zeros as
`ds` starts with, then the digits in base `c` of the number `ds` denotes in base `b`. -/
def rebase (b c : Nat) (ds : List Nat) : List Nat :=
  List.replicate (leadingZeros ds) 0 ++ numDigits c (numValue b ds)

end Stacks.Spec
