import Verif.Model.HashValue
import Verif.Model.Rpc

/-! # `#[derive(PartialEq, PartialOrd)]` on the answers of `estimate_fee` (`stacks/src/rpc.rs`)

They hold an `f64`, so `==` need not be reflexive and `partial_cmp` need not have an answer.  A floating point
number is known here by its 64 bits (`f64::to_bits`), and compared as IEEE 754 says. -/

namespace Stacks.Rpc

section
variable [Http]

/-- `f64::to_bits`. -/
class F64Bits where
  bits : Http.F64 → UInt64

/-- The biased exponent, 11 bits. -/
def f64Exponent (b : UInt64) : Nat := b.toNat / 2 ^ 52 % 2048

/-- The fraction, 52 bits. -/
def f64Fraction (b : UInt64) : Nat := b.toNat % 2 ^ 52

/-- The sign bit. -/
def f64Negative (b : UInt64) : Bool := decide (2 ^ 63 ≤ b.toNat)

/-- `f64::is_nan`. -/
def f64IsNan (b : UInt64) : Bool := f64Exponent b == 2047 && f64Fraction b != 0

/-- The distance from zero, in units of 2⁻¹⁰⁷⁴. Infinity is written like 2¹⁰²⁴. -/
def f64Magnitude (b : UInt64) : Nat :=
  if f64Exponent b = 0 then f64Fraction b else (2 ^ 52 + f64Fraction b) * 2 ^ (f64Exponent b - 1)

/-- The number, in units of 2⁻¹⁰⁷⁴. -/
def f64Units (b : UInt64) : Int := if f64Negative b then -(f64Magnitude b : Int) else f64Magnitude b

/-- `PartialOrd for f64`: no answer if one of the numbers is not a number. -/
def f64PartialCmp (a b : UInt64) : Option Ordering :=
  if f64IsNan a || f64IsNan b then none else some (compare (f64Units a) (f64Units b))

/-- `PartialEq for f64`. -/
def f64Eq (a b : UInt64) : Bool := !f64IsNan a && !f64IsNan b && f64Units a == f64Units b

/-- `PartialOrd for u64`. -/
def u64PartialCmp (a b : UInt64) : Option Ordering := some (compare a.toNat b.toNat)

/-- `match a { Some(Equal) => b, other => other }`, which `derive` puts between two fields. -/
def thenCmp : Option Ordering → Option Ordering → Option Ordering
  | some .eq, o => o
  | o, _ => o

/-- `PartialOrd for Vec<T>`: the first elements that are not `Equal` decide, then the length. -/
def partialCmpList {α : Type} (cmp : α → α → Option Ordering) : List α → List α → Option Ordering
  | [], [] => some .eq
  | [], _ :: _ => some .lt
  | _ :: _, [] => some .gt
  | a :: as, b :: bs => thenCmp (cmp a b) (partialCmpList cmp as bs)

/-- `PartialEq for Vec<T>`. -/
def eqList {α : Type} (eq : α → α → Bool) : List α → List α → Bool
  | [], [] => true
  | a :: as, b :: bs => eq a b && eqList eq as bs
  | _, _ => false

variable [F64Bits]

/-- rpc.rs:100-106 `PartialEq for FeeEstimate`. -/
def FeeEstimate.eq (a b : FeeEstimate) : Bool :=
  a.fee == b.fee && f64Eq (F64Bits.bits a.fee_rate) (F64Bits.bits b.fee_rate)

/-- rpc.rs:100-106 `PartialOrd for FeeEstimate`: the fee, then the rate. -/
def FeeEstimate.partialCmp (a b : FeeEstimate) : Option Ordering :=
  thenCmp (u64PartialCmp a.fee b.fee) (f64PartialCmp (F64Bits.bits a.fee_rate) (F64Bits.bits b.fee_rate))

/-- rpc.rs:93-97 `PartialEq for FeeOk`. -/
def FeeOk.eq (a b : FeeOk) : Bool := eqList FeeEstimate.eq a.estimations b.estimations

/-- rpc.rs:93-97 `PartialOrd for FeeOk`. -/
def FeeOk.partialCmp (a b : FeeOk) : Option Ordering :=
  partialCmpList FeeEstimate.partialCmp a.estimations b.estimations

/-- rpc.rs:79-90 `PartialEq for EstimateFeeResponse`. -/
def EstimateFeeResponse.eq : EstimateFeeResponse → EstimateFeeResponse → Bool
  | .ok a, .ok b => a.eq b
  | .err a, .err b => a == b
  | _, _ => false

/-- rpc.rs:79-90 `PartialOrd for EstimateFeeResponse`: estimates before reasons, and reasons as texts. -/
def EstimateFeeResponse.partialCmp : EstimateFeeResponse → EstimateFeeResponse → Option Ordering
  | .ok a, .ok b => a.partialCmp b
  | .ok _, .err _ => some .lt
  | .err _, .ok _ => some .gt
  | .err a, .err b => some (cmpStr a b)

end

end Stacks.Rpc
