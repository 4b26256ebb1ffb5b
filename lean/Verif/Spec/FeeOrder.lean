import Mathlib.Algebra.Order.Field.Rat
import Mathlib.Algebra.Order.Field.Basic
import Verif.Model.FeeOrder

/-! # What comparing fee estimates should do -/

namespace Stacks.Spec
open Stacks.Rpc

/-! ## Floating point numbers (IEEE 754, binary64) -/

/-- The parts of a floating point number: sign, exponent and fraction. -/
def Writes (b : UInt64) (sign : Bool) (exponent fraction : Nat) : Prop :=
  b.toNat = sign.toNat * 2 ^ 63 + exponent * 2 ^ 52 + fraction ∧ exponent < 2 ^ 11 ∧ fraction < 2 ^ 52

/-- A number: with an exponent above zero the digits are `1.fraction`, with exponent zero `0.fraction`. -/
def HasValue (b : UInt64) (q : ℚ) : Prop :=
  ∃ sign exponent fraction, Writes b sign exponent fraction ∧
    ((0 < exponent ∧ exponent < 2047 ∧
        q = (-1) ^ sign.toNat * 2 ^ ((exponent : ℤ) - 1023) * (1 + fraction / 2 ^ 52)) ∨
      (exponent = 0 ∧ q = (-1) ^ sign.toNat * 2 ^ (-1022 : ℤ) * (fraction / 2 ^ 52)))

/-- Infinity, with its sign. -/
def IsInfinity (b : UInt64) (sign : Bool) : Prop := Writes b sign 2047 0

/-- Not a number. -/
def IsNan (b : UInt64) : Prop := ∃ sign fraction, Writes b sign 2047 fraction ∧ fraction ≠ 0

/-! ## Partial orders -/

/-- What Rust asks of `PartialEq` and `PartialOrd`: the answers agree, the other way round the answer is the
opposite one, `<` is transitive, and equal values compare alike with others. -/
structure PartialOrderLaws {α : Type} (eq : α → α → Bool) (cmp : α → α → Option Ordering) : Prop where
  eq_iff : ∀ a b, eq a b = true ↔ cmp a b = some .eq
  swap : ∀ a b, cmp b a = (cmp a b).map Ordering.swap
  trans : ∀ a b c, cmp a b = some .lt → cmp b c = some .lt → cmp a c = some .lt
  congr : ∀ a b c, eq a b = true → cmp a c = cmp b c

section
variable [Http]

/-- A floating point number occurs in a JSON value. -/
inductive FloatIn (f : Http.F64) : J → Prop
  | here : FloatIn f (.float f)
  | arr {x : J} {xs : List J} (h : x ∈ xs) (hf : FloatIn f x) : FloatIn f (.arr xs)
  | obj {k : Str} {x : J} {es : List (Str × J)} (h : (k, x) ∈ es) (hf : FloatIn f x) : FloatIn f (.obj es)

variable [F64Bits]

/-- The numbers of JSON and integers turned into floating point numbers are numbers: JSON cannot write
anything else. -/
structure NumbersAreNumbers : Prop where
  parsed : ∀ body j f, Http.parseJson body = .ok j → FloatIn f j → ¬ IsNan (F64Bits.bits f)
  natural : ∀ n, ¬ IsNan (F64Bits.bits (Http.f64OfNat n))
  integer : ∀ i, ¬ IsNan (F64Bits.bits (Http.f64OfInt i))

/-- All rates of the answer are numbers, or infinite. -/
def RatesAreNumbers : EstimateFeeResponse → Prop
  | .ok r => ∀ e ∈ r.estimations, ¬ IsNan (F64Bits.bits e.fee_rate)
  | .err _ => True

/-- The same number, or the same infinity. Zero and minus zero are the same number. -/
def SameRate (a b : UInt64) : Prop :=
  (∃ q, HasValue a q ∧ HasValue b q) ∨ ∃ sign, IsInfinity a sign ∧ IsInfinity b sign

/-- A lower number; minus infinity is below all numbers, and infinity above them. -/
def LowerRate (a b : UInt64) : Prop :=
  (∃ p q, HasValue a p ∧ HasValue b q ∧ p < q) ∨
  (IsInfinity a true ∧ ((∃ q, HasValue b q) ∨ IsInfinity b false)) ∨
  ((∃ p, HasValue a p) ∧ IsInfinity b false)

/-- The same fee and the same rate. -/
def SameEstimate (x y : FeeEstimate) : Prop :=
  x.fee = y.fee ∧ SameRate (F64Bits.bits x.fee_rate) (F64Bits.bits y.fee_rate)

/-- A lower fee, or the same fee and a lower rate. -/
def LowerEstimate (x y : FeeEstimate) : Prop :=
  x.fee.toNat < y.fee.toNat ∨
    x.fee = y.fee ∧ LowerRate (F64Bits.bits x.fee_rate) (F64Bits.bits y.fee_rate)

/-- The same fee, and a rate that is not a number: nothing can be said. -/
def NoOrder (x y : FeeEstimate) : Prop :=
  x.fee = y.fee ∧ (IsNan (F64Bits.bits x.fee_rate) ∨ IsNan (F64Bits.bits y.fee_rate))

/-- The lists are the same up to a place where both have an estimate, and these two are related. -/
def FirstDiffer (related : FeeEstimate → FeeEstimate → Prop) (f g : List FeeEstimate) : Prop :=
  ∃ p x xs p' y ys, f = p ++ x :: xs ∧ g = p' ++ y :: ys ∧ List.Forall₂ SameEstimate p p' ∧ related x y

/-- The first list is the same as the beginning of the second, which is longer. -/
def Begins (f g : List FeeEstimate) : Prop :=
  ∃ p y ys, g = p ++ y :: ys ∧ List.Forall₂ SameEstimate f p

end

end Stacks.Spec
