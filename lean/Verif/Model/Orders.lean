import Verif.Model.HashValue
import Verif.Model.Transaction
import Verif.Model.Rpc
import Verif.Model.B58

/-! # The orders made by `#[derive(PartialOrd, Ord)]`

`derive` compares the fields of a struct in the order of their declaration and stops at the first that
differs.  It compares the variants of an enumeration by their discriminants, and two values of the same
variant by their fields.  `partial_cmp` is `Some` of `cmp` for the types here.

`PartialOrd` of `FeeEstimate`, `FeeOk` and `EstimateFeeResponse` (rpc.rs:79-105), which hold an `f64`, is in
`Model/FeeOrder`.  Not modelled: `Ord` of `StacksMainnet` and its like (network.rs:67), of each of which there is one value. -/

namespace Stacks

/-- `Ord for bool`: `false` is less than `true`. -/
def cmpBool (a b : Bool) : Ordering := compare a.toNat b.toNat

/-- `Ord for u8`. -/
def cmpU8 (a b : UInt8) : Ordering := compare a.toNat b.toNat

/-- `Ord for u32`. -/
def cmpU32 (a b : UInt32) : Ordering := compare a.toNat b.toNat

/-- `Ord for u64`. -/
def cmpU64 (a b : UInt64) : Ordering := compare a.toNat b.toNat

/-- `Ord for Vec<T>`: the first differing element decides, then the length. -/
def cmpList {α : Type} (cmp : α → α → Ordering) : List α → List α → Ordering
  | [], [] => .eq
  | [], _ :: _ => .lt
  | _ :: _, [] => .gt
  | a :: as, b :: bs => (cmp a b).then (cmpList cmp as bs)

/-- c32.rs:55-66 `enum Mode`. -/
def C32.Mode.cmp (a b : C32.Mode) : Ordering := cmpU8 a.toU8 b.toU8

/-- c32.rs:69-79 `enum Version`: the discriminants are not in the order of the declaration. -/
def C32.Version.cmp (a b : C32.Version) : Ordering := cmpU8 a.toU8 b.toU8

/-- b58.rs:48-58 `enum Version`. -/
def B58.Version.cmp (a b : B58.Version) : Ordering := cmpU8 a.toU8 b.toU8

namespace Tx

/-- network.rs:19-24 `enum TransactionVersion`. -/
def TransactionVersion.cmp (a b : TransactionVersion) : Ordering := cmpU8 a.toU8 b.toU8

/-- network.rs:26-31 `enum ChainID`, a `u32`: the discriminants are not in the order of the declaration. -/
def ChainID.cmp (a b : ChainID) : Ordering := cmpU32 a.toU32 b.toU32

/-- condition.rs:57-74 `enum ConditionCode`. -/
def ConditionCode.cmp (a b : ConditionCode) : Ordering := cmpU8 a.toU8 b.toU8

/-- condition.rs:77-84 `enum PostConditionMode`. -/
def PostConditionMode.cmp (a b : PostConditionMode) : Ordering := cmpU8 a.toU8 b.toU8

/-- base.rs:30-39 `enum AnchorMode`. -/
def AnchorMode.cmp (a b : AnchorMode) : Ordering := cmpU8 a.toU8 b.toU8

section
variable [Secp]

/-- `Ord for secp256k1::PublicKey` (`secp256k1_ec_pubkey_cmp`): that of the compressed serializations. -/
def cmpKey (a b : Secp.PK) : Ordering := cmpBytes (Secp.serialize a).1 (Secp.serialize b).1

/-- auth.rs:359-365 `enum AuthField`. -/
def AuthField.cmp : AuthField → AuthField → Ordering
  | .pk a, .pk b => cmpKey a b
  | .pk _, .msg _ => .lt
  | .msg _, .pk _ => .gt
  | .msg a, .msg b => HashValue.cmp a b

/-- auth.rs:65-75 `enum Modification`: the discriminant. -/
def Modification.discriminant : Modification → Nat
  | .setPublicKey _ => 0
  | .setSignature _ => 1
  | .addPublicKey _ => 2
  | .addSignature _ => 3

/-- auth.rs:65-75 `enum Modification`. -/
def Modification.cmp : Modification → Modification → Ordering
  | .setPublicKey a, .setPublicKey b => cmpKey a b
  | .setSignature a, .setSignature b => HashValue.cmp a b
  | .addPublicKey a, .addPublicKey b => cmpKey a b
  | .addSignature a, .addSignature b => HashValue.cmp a b
  | a, b => compare a.discriminant b.discriminant

/-- auth.rs:223-235 `struct SpendingConditionStandard`. -/
def SingleSig.cmp (a b : SingleSig) : Ordering :=
  (a.mode.cmp b.mode).then <| (cmpU64 a.fee b.fee).then <| (cmpU64 a.nonce b.nonce).then <|
    (HashValue.cmp a.signer b.signer).then (HashValue.cmp a.signature b.signature)

/-- auth.rs:368-382 `struct SpendingConditionMultiSig`. -/
def MultiSig.cmp (a b : MultiSig) : Ordering :=
  (a.mode.cmp b.mode).then <| (cmpU64 a.fee b.fee).then <| (cmpU64 a.nonce b.nonce).then <|
    (HashValue.cmp a.signer b.signer).then <| (cmpList AuthField.cmp a.fields b.fields).then
      (cmpU8 a.required b.required)

end

end Tx

namespace Rpc

/-- rpc.rs:34-60 `struct NodeInfoResponse`. -/
def NodeInfoResponse.cmp (a b : NodeInfoResponse) : Ordering :=
  (cmpU64 a.peer_version b.peer_version).then <| (cmpStr a.pox_consensus b.pox_consensus).then <|
  (cmpU64 a.burn_block_height b.burn_block_height).then <|
  (cmpStr a.stable_pox_consensus b.stable_pox_consensus).then <|
  (cmpU64 a.stable_burn_block_height b.stable_burn_block_height).then <|
  (cmpStr a.server_version b.server_version).then <| (cmpU32 a.network_id b.network_id).then <|
  (cmpU32 a.parent_network_id b.parent_network_id).then <|
  (cmpU64 a.stacks_tip_height b.stacks_tip_height).then <| (cmpStr a.stacks_tip b.stacks_tip).then <|
  (cmpStr a.stacks_tip_consensus_hash b.stacks_tip_consensus_hash).then
    (cmpStr a.genesis_chainstate_hash b.genesis_chainstate_hash)

/-- rpc.rs:62-76 `struct AddressInfoResponse`. -/
def AddressInfoResponse.cmp (a b : AddressInfoResponse) : Ordering :=
  (cmpStr a.balance b.balance).then <| (cmpStr a.locked b.locked).then <|
  (cmpU64 a.unlock_height b.unlock_height).then <| (cmpU64 a.nonce b.nonce).then <|
  (cmpStr a.balance_proof b.balance_proof).then (cmpStr a.nonce_proof b.nonce_proof)

/-- rpc.rs:132-140 `struct BroadcastErr`. -/
def BroadcastErr.cmp (a b : BroadcastErr) : Ordering :=
  (cmpStr a.error b.error).then <| (cmpStr a.reason b.reason).then (cmpStr a.txid b.txid)

/-- rpc.rs:109-119 `enum BroadcastResponse`. -/
def BroadcastResponse.cmp : BroadcastResponse → BroadcastResponse → Ordering
  | .ok a, .ok b => cmpStr a b
  | .ok _, .err _ => .lt
  | .err _, .ok _ => .gt
  | .err a, .err b => a.cmp b

/-- rpc.rs:163-169 `struct ReadOnlyOk`. -/
def ReadOnlyOk.cmp (a b : ReadOnlyOk) : Ordering := (cmpBool a.okay b.okay).then (cmpStr a.result b.result)

/-- rpc.rs:172-178 `struct ReadOnlyErr`. -/
def ReadOnlyErr.cmp (a b : ReadOnlyErr) : Ordering := (cmpBool a.okay b.okay).then (cmpStr a.cause b.cause)

/-- rpc.rs:149-160 `enum ReadOnlyResponse`. -/
def ReadOnlyResponse.cmp : ReadOnlyResponse → ReadOnlyResponse → Ordering
  | .ok a, .ok b => a.cmp b
  | .ok _, .err _ => .lt
  | .err _, .ok _ => .gt
  | .err a, .err b => a.cmp b

end Rpc

end Stacks
