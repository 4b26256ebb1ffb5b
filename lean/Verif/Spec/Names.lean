import Verif.Spec.Canonical

/-! # Which names and texts the network takes

Rules of the reference node for what is inside a transaction. They are not in /repo and are taken from its
documentation and source as commonly known. The node has more rules than these (see `Spec/Admission` and
`Spec/Types`). -/

namespace Stacks.Spec
open Stacks.Tx
open Stacks.Clarity (CV)

/-- `a` to `z`, `A` to `Z`. -/
def Letter (c : Char) : Prop := (97 ≤ c.toNat ∧ c.toNat ≤ 122) ∨ (65 ≤ c.toNat ∧ c.toNat ≤ 90)

/-- `0` to `9`. -/
def Digit (c : Char) : Prop := 48 ≤ c.toNat ∧ c.toNat ≤ 57

instance (c : Char) : Decidable (Letter c) := by unfold Letter; infer_instance
instance (c : Char) : Decidable (Digit c) := by unfold Digit; infer_instance

/-- The name of a contract: a letter, then letters, digits, `-` and `_`; at most 40 characters. -/
def ContractName : Str → Prop
  | [] => False
  | c :: cs => Letter c ∧ (∀ d ∈ cs, Letter d ∨ Digit d ∨ d ∈ "-_".toList) ∧ cs.length < 40

/-- A name of Clarity (of a function, an asset or an entry of a tuple): a letter, then letters, digits and
`-_!?+<>=/*`, at most 128 characters; or one of the operators. -/
def ClarityName (s : Str) : Prop :=
  (match s with
    | [] => False
    | c :: cs => Letter c ∧ (∀ d ∈ cs, Letter d ∨ Digit d ∨ d ∈ "-_!?+<>=/*".toList) ∧ cs.length < 128) ∨
  s ∈ ["-", "+", "=", "/", "*", "<", ">", "<=", ">="].map String.toList

/-- A text of ASCII characters: printable ones, blanks, tabs and ends of lines. -/
def AsciiText (s : Str) : Prop := ∀ c ∈ s, (32 ≤ c.toNat ∧ c.toNat ≤ 126) ∨ c.toNat ∈ [9, 10, 12, 13]

instance (s : Str) : Decidable (ContractName s) := by cases s <;> unfold ContractName <;> infer_instance
instance (s : Str) : Decidable (ClarityName s) := by cases s <;> unfold ClarityName <;> infer_instance
instance (s : Str) : Decidable (AsciiText s) := by unfold AsciiText; infer_instance

mutual
/-- The names and texts in a value are good. A tuple has an entry. -/
def ValueNames : CV → Prop
  | .principalCon _ name => ContractName name
  | .strAscii s => AsciiText s
  | .respOk v | .respErr v | .optSome v => ValueNames v
  | .list vs | .fnArgs vs => ValueNamesAll vs
  | .tuple es => es ≠ [] ∧ ValueNamesEntries es
  | .int _ | .uint _ | .buffer _ | .tru | .fls | .principalStd _ | .optNone | .strUtf8 _ | .lps _ => True
/-- In every value of a list. -/
def ValueNamesAll : List CV → Prop
  | [] => True
  | v :: vs => ValueNames v ∧ ValueNamesAll vs
/-- In every entry of a tuple, and its name. -/
def ValueNamesEntries : List (Str × CV) → Prop
  | [] => True
  | (k, v) :: es => ClarityName k ∧ ValueNames v ∧ ValueNamesEntries es
end

/-- In a post-condition. -/
def ConditionNames : Condition → Prop
  | .stx a _ _ => ValueNames a
  | .fungible a _ _ info => ValueNames a ∧ ContractName info.name ∧ ClarityName info.asset
  | .nonFungible a token _ info => ValueNames a ∧ ContractName info.name ∧ ClarityName info.asset ∧ ValueNames token

/-- In a payload. -/
def PayloadNames : Payload → Prop
  | .tokenTransfer p => ValueNames p.address
  | .contractCall p => ContractName p.contract ∧ ClarityName p.name ∧ ∀ v ∈ p.args, ValueNames v

/-- In a transaction. -/
def GoodNames [Secp] (t : Transaction) : Prop := (∀ c ∈ t.postConditions, ConditionNames c) ∧ PayloadNames t.payload

end Stacks.Spec
