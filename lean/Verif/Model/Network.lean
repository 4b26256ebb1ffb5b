import Verif.Model.Basic

/-! # `stacks/src/transaction/network.rs` -/

namespace Stacks.Tx

/-- network.rs:19-24 `enum TransactionVersion`. -/
inductive TransactionVersion where
  | mainnet | testnet
deriving DecidableEq, Repr

/-- network.rs:22-23: the discriminants. -/
def TransactionVersion.toU8 : TransactionVersion → UInt8
  | .mainnet => 0x00
  | .testnet => 0x80

/-- network.rs:26-31 `enum ChainID`. -/
inductive ChainID where
  | testnet | mainnet
deriving DecidableEq, Repr

/-- network.rs:29-30: the discriminants. -/
def ChainID.toU32 : ChainID → UInt32
  | .testnet => 0x80000000
  | .mainnet => 0x00000001

/-- network.rs:33-63: the implementations of `Network`: the crate's `StacksMainnet`, `StacksTestnet`
and `StacksMocknet`, whose fields are private and set by `new` only (network.rs:73-78), so that a
value is its type; and `custom` for a user's implementation of the public trait, by the answers of its
three methods (taken to be the same at every call). -/
inductive Network where
  | mainnet | testnet | mocknet
  | custom (version : TransactionVersion) (chainId : ChainID) (baseUrl : Str)
deriving DecidableEq, Repr

/-- network.rs:35-36, 44-63 and 81-83 `version`. -/
def Network.version : Network → TransactionVersion
  | .mainnet => .mainnet
  | .testnet => .testnet
  | .mocknet => .testnet
  | .custom v _ _ => v

/-- network.rs:37-38, 44-63 and 85-87 `chain_id`. -/
def Network.chainId : Network → ChainID
  | .mainnet => .mainnet
  | .testnet => .testnet
  | .mocknet => .testnet
  | .custom _ c _ => c

/-- network.rs:12-17, 39-40, 44-63 and 89-91 `base_url`. -/
def Network.baseUrl : Network → Str
  | .mainnet => "https://api.mainnet.hiro.so".toList
  | .testnet => "https://api.testnet.hiro.so".toList
  | .mocknet => "http://localhost:3999".toList
  | .custom _ _ u => u

end Stacks.Tx
