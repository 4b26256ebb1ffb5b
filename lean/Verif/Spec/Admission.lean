import Verif.Spec.Names

/-! # What the network checks before it takes a transaction into a block

Rules of the reference node about networks, amounts and fees. They are not in /repo and are taken from SIP-005
and the node's source as commonly known. Those that depend on the state of the chain (nonces, balances,
contracts) are left out. -/

namespace Stacks.Spec
open Stacks.Tx
open Stacks.Clarity (CV)
open Stacks.C32 (Mode)

/-- The two networks. -/
inductive Chain where
  | mainnet | testnet
deriving DecidableEq

/-- The version in the addresses of accounts with one key: `SP` and `ST`. -/
def Chain.singleVersion : Chain → UInt8
  | .mainnet => 22
  | .testnet => 26

/-- The version in the addresses of other accounts: `SM` and `SN`. -/
def Chain.multiVersion : Chain → UInt8
  | .mainnet => 20
  | .testnet => 21

/-- An address, as bytes, of the network. -/
def Chain.Owns (net : Chain) (address : Bytes) : Prop :=
  address.head? = some net.singleVersion ∨ address.head? = some net.multiVersion

section
variable [Hashes]

/-- The transaction is for the network. -/
def Chain.IsOf [Secp] (net : Chain) (t : Transaction) : Prop :=
  match net with
  | .mainnet => versionNumber t.version = 0 ∧ chainNumber t.chainId = 1
  | .testnet => versionNumber t.version = 128 ∧ chainNumber t.chainId = 2147483648

/-- The address, as bytes, of a principal. -/
def principalAddress : CV → Bytes
  | .principalStd a | .principalCon a _ => addrBytes a
  | _ => []

variable [Secp]

omit [Hashes] in
/-- The address, as bytes, of the account that a spending condition is for. -/
def spenderAddress (net : Chain) (s : Spending) : Bytes :=
  (if s.mode = .p2pkh then net.singleVersion else net.multiVersion) :: (signerOf s).1

omit [Hashes] in
/-- The fee is paid by the sponsor, if there is one. -/
def paidFee : Auth → Nat
  | .standard o => o.fee.toNat
  | .sponsored _ s => s.fee.toNat

/-- The rules: the network is right; the fee is at least one microSTX per byte; a transfer is of at least one microSTX,
to an account of the network other than the sender's, and without post-conditions; a called contract is one
of the network. -/
def Admissible (net : Chain) (t : Transaction) : Prop :=
  net.IsOf t ∧ (transactionBytes t).length ≤ paidFee t.auth ∧
  match t.payload with
  | .tokenTransfer p => 1 ≤ p.amount.toNat ∧ net.Owns (principalAddress p.address) ∧
      (∀ a, p.address = .principalStd a → addrBytes a ≠ spenderAddress net t.auth.origin) ∧ t.postConditions = []
  | .contractCall p => net.Owns (p.address.version :: p.address.hash.1)

/-! ## The same in terms of what a builder is given -/

/-- How the addresses of the network begin. -/
def Chain.Begins (net : Chain) (address : Str) : Prop :=
  match net with
  | .mainnet => "SP".toList <+: address ∨ "SM".toList <+: address
  | .testnet => "ST".toList <+: address ∨ "SN".toList <+: address

/-- The text of the address of a principal. -/
def addressText : CV → Str
  | .principalStd a | .principalCon a _ => a
  | _ => []

/-- The number of bytes of a transfer without conditions. -/
def transferSize : CV → Nat
  | .principalCon _ name => 181 + name.bytes.length
  | _ => 180

/-- The network of a builder. -/
def networkChain : Network → Option Chain
  | .mainnet => some .mainnet
  | .testnet | .mocknet => some .testnet
  | .custom .mainnet .mainnet _ => some .mainnet
  | .custom .testnet .testnet _ => some .testnet
  | .custom _ _ _ => none

end

end Stacks.Spec
