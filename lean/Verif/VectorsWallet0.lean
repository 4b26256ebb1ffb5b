import Verif.VectorsWallet

/-! # The repository's wallet tests, replayed on the model: the addresses of the account 0

`/repo/stacks/src/wallet.rs:143-189`. These are tests of the model, not proofs about it. -/

namespace Stacks.Vectors
open Stacks.Wallet

attribute [local instance] Concrete.realHashes Concrete.Ecdsa.realSecp
local instance : Bip := Concrete.Bip32.realBip (Concrete.Bip32.bip39Phrases id Concrete.Words.english)

/-- The addresses of the account at an index of the wallet. -/
def addresses (i : UInt32) : List (Option Str) :=
  match (StacksWallet.getAccount ⟨root, []⟩ i).1 with
  | .ok a => [C32.Version.mainnetP2PKH, .mainnetP2SH, .testnetP2PKH, .testnetP2SH].map fun v =>
      match a.getAddress v with
      | .ok s => some s
      | _ => none
  | _ => []

/-- `test_wallet_generate_address`. -/
theorem addresses0 : addresses 0 = ["SP384CVPNDTYA0E92TKJZQTYXQHNZSWGCAG7SAPVB", "SM384CVPNDTYA0E92TKJZQTYXQHNZSWGCAGRD22C9",
    "ST384CVPNDTYA0E92TKJZQTYXQHNZSWGCAH0ER64E", "SN384CVPNDTYA0E92TKJZQTYXQHNZSWGCAKNRHMGW"].map
    fun s => some s.toList := by decide +kernel

end Stacks.Vectors
