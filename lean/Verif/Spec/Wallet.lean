import Verif.Model.Wallet

/-! # Specification of the wallet: what its history determines -/

namespace Stacks.Spec
open Stacks.Wallet

/-- The version byte of an address version. -/
def versionByte : C32.Version → UInt8
  | .mainnetP2PKH => 22
  | .mainnetP2SH => 20
  | .testnetP2PKH => 26
  | .testnetP2SH => 21

section
variable [Secp] [Bip]

/-- What is assumed of `bip32` and `secp256k1` where a theorem takes `[Bip.Lawful]`: the private
key of an extended key parses, to a secret key whose public key serializes to the extended key's
public key; and that parses too. -/
class _root_.Stacks.Bip.Lawful : Prop where
  key : ∀ x : Bip.XPrv, ∃ k : Secp.SK, Bip.skFromSlice (Bip.privateBytes x).1 = .ok k ∧
    Secp.serialize (Secp.pub k) = Bip.publicBytes x ∧ Bip.pkFromSlice (Bip.publicBytes x).1 = .ok (Secp.pub k)

/-- A call on a wallet. -/
inductive WalletOp where
  | get (index : UInt32)
  | set (index : UInt32) (account : StacksAccount)

/-- The wallet after a sequence of calls. -/
def afterCalls (w : StacksWallet) : List WalletOp → StacksWallet
  | [] => w
  | .get i :: ops => afterCalls (w.getAccount i).2 ops
  | .set i a :: ops => afterCalls (w.setAccount i a) ops

/-- The account last set at an index in a history, if any. -/
def lastSet (i : UInt32) (start : Option StacksAccount) : List WalletOp → Option StacksAccount
  | [] => start
  | .get _ :: ops => lastSet i start ops
  | .set j a :: ops => lastSet i (if j = i then some a else start) ops

/-- The account at an index of a root key, by derivation alone. -/
def derivedAccount (root : Bip.XPrv) (i : UInt32) : Outcome Wallet.Error StacksAccount :=
  match Bip.deriveChild root i with
  | .ok child => .ok ⟨child, i⟩
  | .error e => .err (.bip32 e)

/-- What `get_account` should answer after a history of a fresh wallet. -/
def expectedAccount (root : Bip.XPrv) (history : List WalletOp) (i : UInt32) : Outcome Wallet.Error StacksAccount :=
  match lastSet i none history with
  | some a => .ok a
  | none => derivedAccount root i

/-- The account a wallet remembers at an index after a history: the last one set or, before that,
the one derived when it was asked for. -/
def remembered (root : Bip.XPrv) (i : UInt32) (start : Option StacksAccount) : List WalletOp → Option StacksAccount
  | [] => start
  | .set j a :: ops => remembered root i (if j = i then some a else start) ops
  | .get j :: ops =>
    remembered root i
      (if j = i then
        match start, derivedAccount root i with
        | some a, _ => some a
        | none, .ok a => some a
        | none, _ => none
      else start) ops

end

end Stacks.Spec
