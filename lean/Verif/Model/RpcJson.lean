import Verif.Model.Rpc

/-! # `#[derive(Serialize, Deserialize)]` on the response types of `stacks/src/rpc.rs`

The derived serializers, on `serde_json` values: a struct is an object with its fields in declaration
order, an untagged enum is what its variant holds. The text of JSON is in
`Verif.Model.JsonText` and `Verif.Model.JsonRead`. -/

namespace Stacks.Rpc

section
variable [Http]

/-- Which floating point numbers are finite (`f64::is_finite`). -/
class F64Finite where
  finite : Http.F64 → Bool

variable [F64Finite]

/-- `f64::serialize`: JSON has no numbers for infinities and NaN, they become `null`. -/
def f64ToJson (f : Http.F64) : J := if F64Finite.finite f then .float f else .null

omit [F64Finite] in
/-- rpc.rs:34 `#[derive(Serialize)]` for `NodeInfoResponse`. -/
def NodeInfoResponse.toJson (r : NodeInfoResponse) : J :=
  .obj [("peer_version".toList, .num r.peer_version.toNat), ("pox_consensus".toList, .str r.pox_consensus),
    ("burn_block_height".toList, .num r.burn_block_height.toNat),
    ("stable_pox_consensus".toList, .str r.stable_pox_consensus),
    ("stable_burn_block_height".toList, .num r.stable_burn_block_height.toNat),
    ("server_version".toList, .str r.server_version), ("network_id".toList, .num r.network_id.toNat),
    ("parent_network_id".toList, .num r.parent_network_id.toNat),
    ("stacks_tip_height".toList, .num r.stacks_tip_height.toNat), ("stacks_tip".toList, .str r.stacks_tip),
    ("stacks_tip_consensus_hash".toList, .str r.stacks_tip_consensus_hash),
    ("genesis_chainstate_hash".toList, .str r.genesis_chainstate_hash)]

omit [F64Finite] in
/-- rpc.rs:62 `#[derive(Serialize)]` for `AddressInfoResponse`. -/
def AddressInfoResponse.toJson (r : AddressInfoResponse) : J :=
  .obj [("balance".toList, .str r.balance), ("locked".toList, .str r.locked),
    ("unlock_height".toList, .num r.unlock_height.toNat), ("nonce".toList, .num r.nonce.toNat),
    ("balance_proof".toList, .str r.balance_proof), ("nonce_proof".toList, .str r.nonce_proof)]

/-- rpc.rs:100 `#[derive(Serialize)]` for `FeeEstimate`. -/
def FeeEstimate.toJson (e : FeeEstimate) : J :=
  .obj [("fee".toList, .num e.fee.toNat), ("fee_rate".toList, f64ToJson e.fee_rate)]

/-- rpc.rs:93 `#[derive(Serialize)]` for `FeeOk`. -/
def FeeOk.toJson (r : FeeOk) : J := .obj [("estimations".toList, .arr (r.estimations.map FeeEstimate.toJson))]

/-- rpc.rs:79-80 `#[derive(Serialize)]` with `#[serde(untagged)]` for `EstimateFeeResponse`. -/
def EstimateFeeResponse.toJson : EstimateFeeResponse → J
  | .ok r => r.toJson
  | .err s => .str s

omit [F64Finite] in
/-- rpc.rs:79-80 `#[derive(Deserialize)]` with `#[serde(untagged)]`: the variants are tried in order. -/
def EstimateFeeResponse.fromJson (j : J) : Option EstimateFeeResponse :=
  match FeeOk.fromJson j with
  | some r => some (.ok r)
  | none =>
    match asStr j with
    | some s => some (.err s)
    | none => none

omit [F64Finite] in
/-- rpc.rs:132 `#[derive(Serialize)]` for `BroadcastErr`. -/
def BroadcastErr.toJson (e : BroadcastErr) : J :=
  .obj [("error".toList, .str e.error), ("reason".toList, .str e.reason), ("txid".toList, .str e.txid)]

omit [F64Finite] in
/-- rpc.rs:109-110 `#[derive(Serialize)]` with `#[serde(untagged)]` for `BroadcastResponse`. -/
def BroadcastResponse.toJson : BroadcastResponse → J
  | .ok s => .str s
  | .err e => e.toJson

omit [F64Finite] in
/-- rpc.rs:109-110 `#[derive(Deserialize)]` with `#[serde(untagged)]`: the variants are tried in order. -/
def BroadcastResponse.fromJson (j : J) : Option BroadcastResponse :=
  match asStr j with
  | some s => some (.ok s)
  | none =>
    match BroadcastErr.fromJson j with
    | some e => some (.err e)
    | none => none

omit [F64Finite] in
/-- rpc.rs:163 `#[derive(Serialize)]` for `ReadOnlyOk`. -/
def ReadOnlyOk.toJson (r : ReadOnlyOk) : J := .obj [("okay".toList, .bool r.okay), ("result".toList, .str r.result)]

omit [F64Finite] in
/-- rpc.rs:172 `#[derive(Serialize)]` for `ReadOnlyErr`. -/
def ReadOnlyErr.toJson (r : ReadOnlyErr) : J := .obj [("okay".toList, .bool r.okay), ("cause".toList, .str r.cause)]

omit [F64Finite] in
/-- rpc.rs:149-150 `#[derive(Serialize)]` with `#[serde(untagged)]` for `ReadOnlyResponse`. -/
def ReadOnlyResponse.toJson : ReadOnlyResponse → J
  | .ok r => r.toJson
  | .err r => r.toJson

end

end Stacks.Rpc
