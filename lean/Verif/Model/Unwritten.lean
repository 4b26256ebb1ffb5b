import Verif.Model.Transaction

/-! # Decoders that are `unimplemented!()`

Those of `PostConditions` and `Transaction` are in Model/Condition.lean and Model/Transaction.lean. -/

namespace Stacks.Tx

/-- condition.rs:191-196, 250-255, 310-315: `decode` of `STXPostCondition`, `FungiblePostCondition` and
`NonFungiblePostCondition`, which are one type here (`Condition`). -/
def Condition.decode (_ : Bytes) : Outcome Clarity.Error Condition := .panic

/-- condition.rs:353-358 `AssetInfo::decode`. -/
def AssetInfo.decode (_ : Bytes) : Outcome Clarity.Error AssetInfo := .panic

variable [Secp]

/-- auth.rs:214-219 `Auth::decode`. -/
def Auth.decode (_ : Bytes) : Outcome Clarity.Error Auth := .panic

/-- auth.rs:272-277 `SingleSpendingCondition::decode`. -/
def SingleSig.decode (_ : Bytes) : Outcome Clarity.Error SingleSig := .panic

/-- auth.rs:436-441 `MultiSpendingCondition::decode`. -/
def MultiSig.decode (_ : Bytes) : Outcome Clarity.Error MultiSig := .panic

end Stacks.Tx
