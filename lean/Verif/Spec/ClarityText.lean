import Verif.Model.Clarity

/-! # The values whose text form is unambiguous -/

namespace Stacks.Spec
open Stacks.Clarity (CV)

/-- The shape of every Stacks address: an `S` followed by letters and digits. -/
def AddressShaped (a : Str) : Prop := ∃ t, a = 'S' :: t ∧ ∀ c ∈ t, c.isAlphanum

mutual
/-- Values whose text is unambiguous: no double quote in a string, no space or closing
parenthesis in a contract name, no space in a tuple key, and principals that look like
addresses. -/
def PlainText : CV → Prop
  | .int _ | .uint _ | .tru | .fls | .optNone | .buffer _ => True
  | .principalStd a => AddressShaped a
  | .principalCon a n => AddressShaped a ∧ ' ' ∉ n ∧ ')' ∉ n ∧ '"' ∉ n
  | .respOk v | .respErr v | .optSome v => PlainText v
  | .list vs => PlainTextAll vs
  | .tuple es => PlainTextEntries es
  | .strAscii s | .strUtf8 s => '"' ∉ s
  | .lps _ | .fnArgs _ => False
/-- Every element is plain. -/
def PlainTextAll : List CV → Prop
  | [] => True
  | v :: vs => PlainText v ∧ PlainTextAll vs
/-- Every key and value is plain. -/
def PlainTextEntries : List (Str × CV) → Prop
  | [] => True
  | (k, v) :: es => ' ' ∉ k ∧ PlainText v ∧ PlainTextEntries es
end

end Stacks.Spec
