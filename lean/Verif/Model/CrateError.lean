import Verif.Model.ErrorText
import Verif.Model.Rpc
import Verif.Model.Wallet

/-! # The crate's own error, and the texts of the client's and the wallet's -/

namespace Stacks

section
variable [Secp] [Bip] [Rpc.Http]

/-- rpc.rs:20-31 `rpc::Error`: every variant shows the error inside. -/
def Rpc.Error.text : Rpc.Error → Option Str
  | .io _ => none
  | .ureq _ => none
  | .clarity e => e.text

/-- wallet.rs:23-37 `wallet::Error`: every variant shows the error inside. -/
def Wallet.Error.text : Wallet.Error → Option Str
  | .c32 e => e.text
  | .bip32 _ => none
  | .bip39 _ => none
  | .secp256k1 _ => none

/-- lib.rs:49-80 `Error`, with all features. (`transaction::Error::Hex` is not in `Tx.Error`: no
function of the crate makes one.) -/
inductive CrateError where
  | base58 (e : B58.Error)
  | c32 (e : C32.Error)
  | hex (e : Hex.Error)
  | clarity (e : Clarity.Error)
  | transaction (e : Tx.TxError)
  | rpc (e : Rpc.Error)
  | wallet (e : Wallet.Error)
  | derive (e : Derive.Error)

/-- lib.rs:52-79: `#[error(transparent)]` on every variant. -/
def CrateError.text : CrateError → Option Str
  | .base58 e => e.text
  | .c32 e => e.text
  | .hex e => e.text
  | .clarity e => e.text
  | .transaction e => e.text
  | .rpc e => e.text
  | .wallet e => e.text
  | .derive e => some e.display

end

end Stacks
