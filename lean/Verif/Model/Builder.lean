import Verif.Model.Transaction

/-! # `stacks/src/transaction/builder.rs`

The type parameter `N: Network` ranges over the crate's three networks and those a user may define;
`T: Clarity` over the crate's Clarity types. -/

namespace Stacks.Tx
open Stacks.Clarity (CV)

section
variable [Secp]

/-- builder.rs:28-72 `struct STXTokenTransfer`. -/
structure STXTokenTransfer where
  recipient : CV
  amount : UInt64
  sender : Secp.SK
  network : Network
  fee : UInt64 := 0
  nonce : UInt64 := 0
  anchorMode : AnchorMode := .any
  memo : Str := []
  postConditionMode : PostConditionMode := .allow
  postConditions : List Condition := []
  sponsored : Bool := false

/-- builder.rs:28-72: the optional calls of the typed builder, each at most once and in any order;
`None` is a call not made. -/
structure TransferOptions where
  fee : Option UInt64 := none
  nonce : Option UInt64 := none
  anchorMode : Option AnchorMode := none
  memo : Option Str := none
  postConditionMode : Option PostConditionMode := none
  postConditions : Option (List Condition) := none
  sponsored : Option Bool := none

/-- builder.rs:28-72: `STXTokenTransfer::builder()....build()`, with the defaults in the
attributes of builder.rs:43-71. -/
def STXTokenTransfer.build (recipient : CV) (amount : UInt64) (sender : Secp.SK) (network : Network)
    (o : TransferOptions) : STXTokenTransfer where
  recipient := recipient
  amount := amount
  sender := sender
  network := network
  fee := o.fee.getD 0
  nonce := o.nonce.getD 0
  anchorMode := o.anchorMode.getD .any
  memo := o.memo.getD []
  postConditionMode := o.postConditionMode.getD .allow
  postConditions := o.postConditions.getD []
  sponsored := o.sponsored.getD false

/-- builder.rs:105-148 `struct STXContractCall`. -/
structure STXContractCall where
  address : Str
  contract : Str
  fnName : Str
  fnArgs : List CV
  sender : Secp.SK
  network : Network
  fee : UInt64 := 0
  nonce : UInt64 := 0
  anchorMode : AnchorMode := .any
  postConditionMode : PostConditionMode := .allow
  postConditions : List Condition := []
  sponsored : Bool := false

/-- builder.rs:105-148: the optional calls of the typed builder. -/
structure CallOptions where
  fee : Option UInt64 := none
  nonce : Option UInt64 := none
  anchorMode : Option AnchorMode := none
  postConditionMode : Option PostConditionMode := none
  postConditions : Option (List Condition) := none
  sponsored : Option Bool := none

/-- builder.rs:105-148: `STXContractCall::builder()....build()`, with the defaults in the
attributes of builder.rs:125-147. -/
def STXContractCall.build (address contract fnName : Str) (fnArgs : List CV) (sender : Secp.SK)
    (network : Network) (o : CallOptions) : STXContractCall where
  address := address
  contract := contract
  fnName := fnName
  fnArgs := fnArgs
  sender := sender
  network := network
  fee := o.fee.getD 0
  nonce := o.nonce.getD 0
  anchorMode := o.anchorMode.getD .any
  postConditionMode := o.postConditionMode.getD .allow
  postConditions := o.postConditions.getD []
  sponsored := o.sponsored.getD false

variable [Hashes]

/-- builder.rs:80-101 `STXTokenTransfer::transaction`. It has no error type; `unimplemented!`
is a panic. (`TokenTransferPayload::new`, payload.rs:68-78, stores its arguments.) -/
def STXTokenTransfer.transaction {ε : Type} (b : STXTokenTransfer) : Outcome ε Transaction := do
  let pk := Secp.pub b.sender
  let payload : TokenTransfer := ⟨b.recipient, b.amount, b.memo⟩
  let condition ← SingleSig.new pk b.fee b.nonce .p2pkh
  let auth ← (if b.sponsored then .panic else .ok (.standard (.single condition)) : Outcome ε Auth)
  pure ⟨b.network.version, b.network.chainId, auth, b.anchorMode, b.postConditionMode, b.postConditions,
    .tokenTransfer payload⟩

/-- builder.rs:155-181 `STXContractCall::transaction`. (`ContractCallPayload::new`,
payload.rs:149-161, wraps its arguments; a `c32::Error` becomes `clarity::Error::C32`.) -/
def STXContractCall.transaction (b : STXContractCall) : Outcome Clarity.Error Transaction := do
  let pk := Secp.pub b.sender
  let address ← (C32.addressFromStr b.address).mapErr .c32
  let payload : ContractCall := ⟨address, b.contract, b.fnName, b.fnArgs⟩
  let condition ← SingleSig.new pk b.fee b.nonce .p2pkh
  let auth ← (if b.sponsored then .panic else .ok (.standard (.single condition)) : Outcome Clarity.Error Auth)
  pure ⟨b.network.version, b.network.chainId, auth, b.anchorMode, b.postConditionMode, b.postConditions,
    .contractCall payload⟩

end

end Stacks.Tx
