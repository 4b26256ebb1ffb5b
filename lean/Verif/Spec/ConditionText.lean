import Verif.Spec.ClarityText
import Verif.Model.Condition

/-! # The post-conditions whose text is unambiguous -/

namespace Stacks.Spec
open Stacks.Clarity (CV)
open Stacks.Tx (Condition AssetInfo)

mutual
/-- Values whose debug text is unambiguous: no closing parenthesis in a string, a name or an address,
no dot in the address of a contract, neither a colon nor a closing parenthesis in a tuple key; and
below a `some`, where the crate prints the plain text, values whose plain text is unambiguous. -/
def PlainDebug : CV → Prop
  | .int _ | .uint _ | .tru | .fls | .optNone | .buffer _ => True
  | .principalStd a => ')' ∉ a
  | .principalCon a n => '.' ∉ a ∧ ')' ∉ a ∧ ')' ∉ n
  | .respOk v | .respErr v => PlainDebug v
  | .optSome v => PlainText v
  | .list vs => PlainDebugAll vs
  | .tuple es => PlainDebugEntries es
  | .strAscii s | .strUtf8 s | .lps s => ')' ∉ s
  | .fnArgs vs => PlainDebugAll vs
/-- Every element is plain. -/
def PlainDebugAll : List CV → Prop
  | [] => True
  | v :: vs => PlainDebug v ∧ PlainDebugAll vs
/-- Every key and value is plain. -/
def PlainDebugEntries : List (Str × CV) → Prop
  | [] => True
  | (k, v) :: es => (':' ∉ k ∧ ')' ∉ k) ∧ PlainDebug v ∧ PlainDebugEntries es
end

/-- An asset whose address and names contain no closing parenthesis. -/
def PlainAsset (i : AssetInfo) : Prop := ')' ∉ i.address ∧ ')' ∉ i.name ∧ ')' ∉ i.asset

/-- A post-condition whose principal, token name and asset are plain. -/
def PlainCondition : Condition → Prop
  | .stx address _ _ => PlainDebug address
  | .fungible address _ _ info => PlainDebug address ∧ PlainAsset info
  | .nonFungible address name _ info => PlainDebug address ∧ PlainDebug name ∧ PlainAsset info

end Stacks.Spec
