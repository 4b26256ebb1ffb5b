import Verif.Spec.Node
import Verif.Spec.Rpc
import Verif.Spec.Wallet
import Verif.Spec.C32

/-! # From the words of a wallet to a node -/

namespace Stacks.Spec
open Stacks.Tx Stacks.Rpc Stacks.Wallet

section
variable [Secp] [Hashes] [Bip]

/-- The account with an index of a phrase: the phrase's seed, without a passphrase, is derived along
the path of Stacks, and then once more. -/
def IsAccount (words : Str) (i : UInt32) (a : StacksAccount) : Prop :=
  a.index = i ∧ ∃ m p x, Bip.parseMnemonic words = .ok m ∧ Bip.parsePath "m/44'/5757'/0'/0".toList = .ok p ∧
    Bip.deriveFromPath (Bip.toSeed m []) p = .ok x ∧ Bip.deriveChild x i = .ok a.ext

/-- A transaction is from an account, with a fee and a nonce: one key is responsible for it, and the
account's addresses, on all networks, are addresses of that key's hash. -/
def SentFrom (a : StacksAccount) (fee nonce : UInt64) (t : Transaction) : Prop :=
  ∃ c, t.auth = .standard (.single c) ∧ c.mode = .p2pkh ∧ c.fee = fee ∧ c.nonce = nonce ∧
    ∀ v, ∃ s, a.getAddress v = .ok s ∧ C32.addressFromStr s = .ok ⟨c.signer, versionByte v⟩

variable [Http]

omit [Bip] in
/-- A broadcast delivers a transaction: it makes one request, with bytes that a node accepts and that
are this transaction; and when the node says so, the caller gets its answer. -/
def Delivers (parse : Arr 33 → Option Secp.PK) (url : Str) (server : Request → Reply) (call : Call BroadcastResponse)
    (t : Transaction) : Prop :=
  ∃ bs, call.sent = [broadcastRequest url bs] ∧ NodeAccepts parse bs ∧
    (readTransaction parse).run bs = some (t, []) ∧
    ∀ code body txid, server (broadcastRequest url bs) = .response code body → code < 400 →
      Http.intoString body = .ok txid → call.result = .ok (.ok txid)

end

end Stacks.Spec
