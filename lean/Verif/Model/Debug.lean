import Verif.Model.Condition
import Verif.Model.Builder

/-! # The debug text of Clarity values and post-conditions, and the equalities built on texts

`{:?}` of the types of `stacks/src/clarity/impl.rs` and `stacks/src/transaction/condition.rs`, and
`==` of post-conditions, contract-call payloads and builders. -/

namespace Stacks.Clarity

mutual
/-- `Debug::fmt` by type: impl.rs:65-69, 118-122, 180-184, 242-246, 279-283, 320-324, 380-384,
430-434, 468-472, 506-510 (the displayed form of the inner value), 541-545, 603-614, 739-750,
801-805, 838-842, 880-884, 949-960. No implementation looks at the alternate flag, so `{:?}` and
`{:#?}` give the same text. -/
def CV.debug : CV → Str
  | .int x => "IntCV(".toList ++ showInt x.toInt ++ ")".toList
  | .uint x => "UIntCV(".toList ++ Nat.toDigits 10 x.toNat ++ ")".toList
  | .buffer bs => "BufferCV(".toList ++ (CV.buffer bs).display ++ ")".toList
  | .tru => "TrueCV".toList
  | .fls => "FalseCV".toList
  | .principalStd a => "StandardPrincipalCV(".toList ++ a ++ ")".toList
  | .principalCon a n => "ContractPrincipalCV(".toList ++ (CV.principalCon a n).display ++ ")".toList
  | .respOk v => "OkCV(".toList ++ v.debug ++ ")".toList
  | .respErr v => "ErrCV(".toList ++ v.debug ++ ")".toList
  | .optSome v => "SomeCV(".toList ++ v.display ++ ")".toList
  | .optNone => "NoneCV".toList
  | .list vs => "ListCV(".toList ++ CV.debugAll vs ++ ")".toList
  | .tuple es => "TupleCV(".toList ++ CV.debugEntries es ++ ")".toList
  | .strAscii s => "StringAsciiCV(".toList ++ s ++ ")".toList
  | .strUtf8 s => "StringUtf8CV(".toList ++ s ++ ")".toList
  | .lps s => "LengthPrefixedStr(".toList ++ s ++ ")".toList
  | .fnArgs vs => "FnArguments(".toList ++ CV.debugAll vs ++ ")".toList

/-- impl.rs:606-611 and 952-957: the elements separated by `, `. -/
def CV.debugAll : List CV → Str
  | [] => []
  | v :: vs => v.debug ++ (if vs.isEmpty then [] else ", ".toList ++ CV.debugAll vs)

/-- impl.rs:742-747: the entries `key: value` separated by `, `. -/
def CV.debugEntries : List (Str × CV) → Str
  | [] => []
  | (k, v) :: es => k ++ ": ".toList ++ v.debug ++
      (if es.isEmpty then [] else ", ".toList ++ CV.debugEntries es)
end

end Stacks.Clarity

namespace Stacks.Tx
open Stacks.Clarity

/-- condition.rs:58 `#[derive(Debug)]` for `ConditionCode`. -/
def ConditionCode.debug : ConditionCode → Str
  | .eq => "EQ".toList
  | .gt => "GT".toList
  | .gte => "GTE".toList
  | .lt => "LT".toList
  | .lte => "LTE".toList
  | .hasNot => "HasNot".toList
  | .has => "Has".toList

/-- condition.rs:320 `#[derive(Debug)]` for `AssetInfo`. -/
def AssetInfo.debug (i : AssetInfo) : Str :=
  "AssetInfo { address: ".toList ++ (CV.principalStd i.address).debug ++ ", name: ".toList ++ (CV.lps i.name).debug ++
    ", asset: ".toList ++ (CV.lps i.asset).debug ++ " }".toList

/-- condition.rs:147, 202 and 261 `#[derive(Debug)]` for the three post-condition types. -/
def Condition.debug : Condition → Str
  | .stx address amount code =>
    "STXPostCondition { address: ".toList ++ address.debug ++ ", amount: ".toList ++ Nat.toDigits 10 amount.toNat ++
      ", code: ".toList ++ code.debug ++ " }".toList
  | .fungible address amount code info =>
    "FungiblePostCondition { address: ".toList ++ address.debug ++ ", amount: ".toList ++
      Nat.toDigits 10 amount.toNat ++ ", code: ".toList ++ code.debug ++ ", info: ".toList ++ info.debug ++ " }".toList
  | .nonFungible address name code info =>
    "NonFungiblePostCondition { address: ".toList ++ address.debug ++ ", name: ".toList ++ name.debug ++
      ", code: ".toList ++ code.debug ++ ", info: ".toList ++ info.debug ++ " }".toList

/-- The elements of a `Vec` in `{:?}`. -/
def conditionsDebugAll : List Condition → Str
  | [] => []
  | c :: cs => c.debug ++ (if cs.isEmpty then [] else ", ".toList ++ conditionsDebugAll cs)

/-- condition.rs:119-129 `Display` and `Debug` of `PostConditions`: `{:?}` of the vector. -/
def postConditionsDisplay (cs : List Condition) : Str := "[".toList ++ conditionsDebugAll cs ++ "]".toList

/-- macro.rs:70-74, instantiated at condition.rs:86-90: `==` of `PostConditions` compares the
displayed forms. -/
def postConditionsEq (cs ds : List Condition) : Bool := postConditionsDisplay cs == postConditionsDisplay ds

/-- payload.rs:135 `#[derive(PartialEq)]` for `ContractCallPayload`: field by field, where strings
and arguments are compared by their displayed forms (macro.rs:70-74). -/
def ContractCall.eq (p q : ContractCall) : Bool :=
  decide (p.address = q.address) && CV.eq (.lps p.contract) (.lps q.contract) && CV.eq (.lps p.name) (.lps q.name) &&
    CV.eq (.fnArgs p.args) (.fnArgs q.args)

section
variable [Secp]

/-- builder.rs:28 `#[derive(PartialEq)]` for `STXTokenTransfer<T, N>`: both sides have the same type
`T` of recipient and the same network type `N`. Keys are equal when they are the same. -/
def STXTokenTransfer.Eq (b c : STXTokenTransfer) : Prop :=
  b.recipient.kind = c.recipient.kind ∧ b.network = c.network ∧
  CV.eq b.recipient c.recipient = true ∧ b.amount = c.amount ∧ b.sender = c.sender ∧ b.fee = c.fee ∧ b.nonce = c.nonce ∧
  b.anchorMode = c.anchorMode ∧ b.memo = c.memo ∧ b.postConditionMode = c.postConditionMode ∧
  postConditionsEq b.postConditions c.postConditions = true ∧ b.sponsored = c.sponsored

/-- builder.rs:104 `#[derive(PartialEq)]` for `STXContractCall<N>`. -/
def STXContractCall.Eq (b c : STXContractCall) : Prop :=
  b.network = c.network ∧ b.address = c.address ∧ b.contract = c.contract ∧ b.fnName = c.fnName ∧
  CV.eq (.fnArgs b.fnArgs) (.fnArgs c.fnArgs) = true ∧ b.sender = c.sender ∧ b.fee = c.fee ∧ b.nonce = c.nonce ∧
  b.anchorMode = c.anchorMode ∧ b.postConditionMode = c.postConditionMode ∧
  postConditionsEq b.postConditions c.postConditions = true ∧ b.sponsored = c.sponsored

end

end Stacks.Tx
