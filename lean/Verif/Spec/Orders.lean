import Verif.Spec.Num
import Verif.Spec.Transaction
import Verif.Model.Transaction
import Verif.Model.Rpc

/-! # What the derived orders should be

An order is described by a key: a list of numbers for each value, such that one value comes before another
exactly when its key does in the order of a dictionary. -/

namespace Stacks.Spec
open Stacks.Tx Stacks.Rpc

/-- The order of a dictionary: the shorter word when it begins the longer one, and otherwise the word with
the smaller letter at the first place where they differ. -/
def Before (xs ys : List Nat) : Prop :=
  (∃ z zs, ys = xs ++ z :: zs) ∨ ∃ p a b s t, xs = p ++ a :: s ∧ ys = p ++ b :: t ∧ a < b

/-- The comparison is that of the keys, and says `Equal` of equal values only. -/
structure Ranks {α : Type} (cmp : α → α → Ordering) (key : α → List Nat) : Prop where
  lt : ∀ a b, cmp a b = .lt ↔ Before (key a) (key b)
  gt : ∀ a b, cmp a b = .gt ↔ Before (key b) (key a)
  eq : ∀ a b, cmp a b = .eq ↔ a = b

/-- The comparison is a total order: what a sorted map or a sort relies on. -/
structure TotalOrder {α : Type} (cmp : α → α → Ordering) : Prop where
  eq : ∀ a b, cmp a b = .eq ↔ a = b
  swap : ∀ a b, cmp b a = (cmp a b).swap
  trans : ∀ a b c, cmp a b = .lt → cmp b c = .lt → cmp a c = .lt

/-- The number that bytes write, the first the most significant. -/
def bytesNumber (bs : Bytes) : Nat := numValue 256 (bs.map UInt8.toNat)

/-- A text as part of a key: its UTF-8 bytes, and an end that comes before any byte. -/
def textKey (s : Str) : List Nat := s.bytes.map (fun b => b.toNat + 1) ++ [0]

section
variable [Secp]

/-- The key of an authorization field: keys before signatures, and otherwise the number. -/
def fieldKey : AuthField → List Nat
  | .pk k => [0, bytesNumber (Secp.serialize k).1]
  | .msg s => [1, bytesNumber s.1]

/-- The key of a single-signature condition: mode, fee, nonce, signer, signature. -/
def singleKey (c : SingleSig) : List Nat :=
  [(modeNumber c.mode).toNat, c.fee.toNat, c.nonce.toNat, bytesNumber c.signer.1, bytesNumber c.signature.1]

/-- The key of a multi-signature condition: mode, fee, nonce, signer, the fields (each announced by a 1 and
the last followed by a 0), the required number. -/
def multiKey (c : MultiSig) : List Nat :=
  [(modeNumber c.mode).toNat, c.fee.toNat, c.nonce.toNat, bytesNumber c.signer.1] ++
    c.fields.flatMap (fun f => 1 :: fieldKey f) ++ [0, c.required.toNat]

/-- The key of a modification: its kind and its value. -/
def modificationKey : Modification → List Nat
  | .setPublicKey k => [0, bytesNumber (Secp.serialize k).1]
  | .setSignature s => [1, bytesNumber s.1]
  | .addPublicKey k => [2, bytesNumber (Secp.serialize k).1]
  | .addSignature s => [3, bytesNumber s.1]

end

/-- The key of the answer of `get_info`: its fields in the order of the declaration. -/
def nodeInfoKey (r : NodeInfoResponse) : List Nat :=
  [r.peer_version.toNat] ++ textKey r.pox_consensus ++ [r.burn_block_height.toNat] ++
    textKey r.stable_pox_consensus ++ [r.stable_burn_block_height.toNat] ++ textKey r.server_version ++
    [r.network_id.toNat, r.parent_network_id.toNat, r.stacks_tip_height.toNat] ++ textKey r.stacks_tip ++
    textKey r.stacks_tip_consensus_hash ++ textKey r.genesis_chainstate_hash

/-- The key of the answer of `get_address_info`: the balance comes first, as a text. -/
def addressInfoKey (r : AddressInfoResponse) : List Nat :=
  textKey r.balance ++ textKey r.locked ++ [r.unlock_height.toNat, r.nonce.toNat] ++ textKey r.balance_proof ++
    textKey r.nonce_proof

/-- The key of the answer of `broadcast`: successes before failures. -/
def broadcastKey : BroadcastResponse → List Nat
  | .ok txid => 0 :: textKey txid
  | .err e => 1 :: (textKey e.error ++ textKey e.reason ++ textKey e.txid)

/-- The key of the answer of a read-only call: successes before failures. -/
def readOnlyKey : ReadOnlyResponse → List Nat
  | .ok r => 0 :: r.okay.toNat :: textKey r.result
  | .err r => 1 :: r.okay.toNat :: textKey r.cause

end Stacks.Spec
