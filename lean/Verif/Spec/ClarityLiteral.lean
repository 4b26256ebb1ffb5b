import Verif.Model.Clarity
import Verif.Spec.Hex
import Verif.Spec.Num

/-! # The grammar of the textual form of Clarity values

`Literal v s` says that the text `s` is a literal for the value `v`. It is a relation, given by
one rule per form, and does not mention the function of the crate that prints values. -/

namespace Stacks.Spec
open Stacks.Clarity (CV)

/-- `s` is the usual decimal numeral of `n`: at least one digit, no leading zero unless it is the
single digit, and the positional value of the digits is `n`. -/
def Decimal (s : Str) (n : Nat) : Prop :=
  s ≠ [] ∧ (∀ c ∈ s, c ∈ "0123456789".toList) ∧ (s.head? = some '0' → s = ['0']) ∧
    numValue 10 (s.map (fun c => "0123456789".toList.idxOf c)) = n

/-- A decimal numeral, preceded by a minus sign if the number is negative. -/
def SignedDecimal (s : Str) (i : Int) : Prop :=
  (0 ≤ i ∧ Decimal s i.natAbs) ∨ (i < 0 ∧ ∃ t, s = '-' :: t ∧ Decimal t i.natAbs)

/-- The parts written one after the other with one space in between. -/
def spaced (parts : List Str) : Str := [' '].intercalate parts

mutual
/-- The text `s` is a literal for the value. -/
inductive Literal : CV → Str → Prop
  | int {x s} : SignedDecimal s x.toInt → Literal (.int x) s
  | uint {x s} : Decimal s x.toNat → Literal (.uint x) ('u' :: s)
  | buffer {bs s} : (∀ c ∈ s, c ∈ hexDigits) → hexBytes? s = some (bs.map UInt8.toNat) →
      Literal (.buffer bs) ('0' :: 'x' :: s)
  | tru : Literal .tru "true".toList
  | fls : Literal .fls "false".toList
  | principalStd {a} : Literal (.principalStd a) a
  | principalCon {a n} : Literal (.principalCon a n) (a ++ ['.'] ++ n)
  | ok {v s} : Literal v s → Literal (.respOk v) ("(ok ".toList ++ s ++ ")".toList)
  | err {v s} : Literal v s → Literal (.respErr v) ("(err ".toList ++ s ++ ")".toList)
  | none : Literal .optNone "none".toList
  | some {v s} : Literal v s → Literal (.optSome v) ("(some ".toList ++ s ++ ")".toList)
  | list {vs ss} : Literals vs ss → Literal (.list vs) ("(list ".toList ++ spaced ss ++ ")".toList)
  | tuple {es ss} : Bindings es ss →
      Literal (.tuple es) ("(tuple ".toList ++ spaced ss ++ ")".toList)
  | strAscii {s} : Literal (.strAscii s) (['"'] ++ s ++ ['"'])
  | strUtf8 {s} : Literal (.strUtf8 s) (['u', '"'] ++ s ++ ['"'])
  | lps {s} : Literal (.lps s) s
  | fnArgs {vs ss} : Literals vs ss →
      Literal (.fnArgs vs) ("(fn-args ".toList ++ spaced ss ++ ")".toList)
/-- The texts are literals for the values, one for each in order. -/
inductive Literals : List CV → List Str → Prop
  | nil : Literals [] []
  | cons {v s vs ss} : Literal v s → Literals vs ss → Literals (v :: vs) (s :: ss)
/-- The texts are `(key literal)` for the entries, one for each in order. -/
inductive Bindings : List (Str × CV) → List Str → Prop
  | nil : Bindings [] []
  | cons {k v s es ss} : Literal v s → Bindings es ss →
      Bindings ((k, v) :: es) (("(".toList ++ k ++ " ".toList ++ s ++ ")".toList) :: ss)
end

end Stacks.Spec
