import Mathlib.Data.List.Forall2
import Verif.Model.Rpc
import Verif.Spec.Transaction

/-! # Specification of the RPC client: the requests, and what replies mean -/

namespace Stacks.Spec
open Stacks.Rpc
open Stacks.Clarity (CV)

section
variable [Http]

/-! ## Requests -/

/-- A transaction posted to a node. -/
def broadcastRequest (url : Str) (transaction : Bytes) : Request where
  method := "POST".toList
  url := url ++ "/v2/transactions".toList
  headers := [("Content-Type".toList, "application/octet-stream".toList)]
  body := .bytes transaction

/-- A question for the fee of a transaction. -/
def feeQuestion (url : Str) (payloadHex : Str) (length : Nat) : Request where
  method := "POST".toList
  url := url ++ "/v2/fees/transaction".toList
  headers := []
  body := .json (.obj [("transaction_payload".toList, .str payloadHex), ("estimated_len".toList, .num length)])

/-- A read-only call. -/
def readOnlyRequest (url address contract function sender : Str) (arguments : List Str) : Request where
  method := "POST".toList
  url := url ++ "/v2/contracts/call-read/".toList ++ address ++ "/".toList ++ contract ++ "/".toList ++ function
  headers := []
  body := .json (.obj [("sender".toList, .str sender), ("arguments".toList, .arr (arguments.map .str))])

/-- A question for the state of the node. -/
def infoRequest (url : Str) : Request where
  method := "GET".toList
  url := url ++ "/v2/info".toList
  headers := []
  body := .empty

/-- A question for an account. -/
def accountRequest (url address : Str) : Request where
  method := "GET".toList
  url := url ++ "/v2/accounts/".toList ++ address
  headers := []
  body := .empty

/-! ## Replies -/

/-- A JSON value gives values to named fields: an object in which each of the names occurs exactly
once and with that value, or an array of just the values, in order. -/
def HasFields (j : J) (fields : List (Str × J)) : Prop :=
  (∃ es, j = .obj es ∧ ∀ f ∈ fields, es.filter (fun e => e.1 == f.1) = [f]) ∨ j = .arr (fields.map (·.2))

/-- The floating point value of a JSON number. -/
inductive IsNumber : J → Http.F64 → Prop
  | num (n : Nat) : IsNumber (.num n) (Http.f64OfNat n)
  | neg (i : Int) : IsNumber (.neg i) (Http.f64OfInt i)
  | float (f : Http.F64) : IsNumber (.float f) f

/-- A fee and a fee rate. -/
def IsFeeEstimate (j : J) (e : FeeEstimate) : Prop :=
  ∃ rate, IsNumber rate e.fee_rate ∧ HasFields j [("fee".toList, .num e.fee.toNat), ("fee_rate".toList, rate)]

/-- A list of estimates. -/
def IsFeeOk (j : J) (r : FeeOk) : Prop :=
  ∃ xs, HasFields j [("estimations".toList, .arr xs)] ∧ List.Forall₂ IsFeeEstimate xs r.estimations

/-- A refusal of a transaction. -/
def IsBroadcastErr (j : J) (e : BroadcastErr) : Prop :=
  HasFields j [("error".toList, .str e.error), ("reason".toList, .str e.reason), ("txid".toList, .str e.txid)]

/-- The result of a read-only call. -/
def IsReadOnlyOk (j : J) (r : ReadOnlyOk) : Prop :=
  HasFields j [("okay".toList, .bool r.okay), ("result".toList, .str r.result)]

/-- The failure of a read-only call. -/
def IsReadOnlyErr (j : J) (r : ReadOnlyErr) : Prop :=
  HasFields j [("okay".toList, .bool r.okay), ("cause".toList, .str r.cause)]

/-- An account. -/
def IsAddressInfo (j : J) (r : AddressInfoResponse) : Prop :=
  HasFields j [("balance".toList, .str r.balance), ("locked".toList, .str r.locked),
    ("unlock_height".toList, .num r.unlock_height.toNat), ("nonce".toList, .num r.nonce.toNat),
    ("balance_proof".toList, .str r.balance_proof), ("nonce_proof".toList, .str r.nonce_proof)]

/-- The state of a node. -/
def IsNodeInfo (j : J) (r : NodeInfoResponse) : Prop :=
  HasFields j [("peer_version".toList, .num r.peer_version.toNat), ("pox_consensus".toList, .str r.pox_consensus),
    ("burn_block_height".toList, .num r.burn_block_height.toNat),
    ("stable_pox_consensus".toList, .str r.stable_pox_consensus),
    ("stable_burn_block_height".toList, .num r.stable_burn_block_height.toNat),
    ("server_version".toList, .str r.server_version), ("network_id".toList, .num r.network_id.toNat),
    ("parent_network_id".toList, .num r.parent_network_id.toNat),
    ("stacks_tip_height".toList, .num r.stacks_tip_height.toNat), ("stacks_tip".toList, .str r.stacks_tip),
    ("stacks_tip_consensus_hash".toList, .str r.stacks_tip_consensus_hash),
    ("genesis_chainstate_hash".toList, .str r.genesis_chainstate_hash)]

/-- Reading a value described by `P` out of a body fails with this error: the body is not JSON, or the
JSON value is none of those described. -/
def Unreadable {α : Type} (P : J → α → Prop) (body : Http.Body) (x : Http.IoErr) : Prop :=
  Http.parseJson body = .error x ∨ ∃ j, Http.parseJson body = .ok j ∧ (∀ a, ¬ P j a) ∧ x = Http.dataErr

/-- What a reply to a read-only call means. -/
def IsReadOnly (j : J) : ReadOnlyResponse → Prop
  | .ok x => IsReadOnlyOk j x
  | .err x => (∀ y, ¬ IsReadOnlyOk j y) ∧ IsReadOnlyErr j x

end

end Stacks.Spec
