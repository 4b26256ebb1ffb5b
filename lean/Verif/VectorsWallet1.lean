import Verif.VectorsWallet0

/-! # The repository's wallet tests, replayed on the model: the addresses of the account 1

`/repo/stacks/src/wallet.rs:143-189`. These are tests of the model, not proofs about it. -/

namespace Stacks.Vectors
open Stacks.Wallet

attribute [local instance] Concrete.realHashes Concrete.Ecdsa.realSecp
local instance : Bip := Concrete.Bip32.realBip (Concrete.Bip32.bip39Phrases id Concrete.Words.english)

/-- `test_wallet_generate_account_indexed`. -/
theorem addresses1 : addresses 1 = ["SP23K7K2V45JFZVBMQBE8R0PP8SQG7HZF9473KBD", "SM23K7K2V45JFZVBMQBE8R0PP8SQG7HZFB7DZ2RK",
    "ST23K7K2V45JFZVBMQBE8R0PP8SQG7HZFA6Z68VE", "SN23K7K2V45JFZVBMQBE8R0PP8SQG7HZFAFNYMDJ"].map
    fun s => some s.toList := by decide +kernel

end Stacks.Vectors
