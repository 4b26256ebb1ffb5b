import Verif.Spec.Hex
import Verif.Spec.Verify
import Verif.Model.Release

/-! # What a build without overflow checks makes of several signatures -/

namespace Stacks.Spec
open Stacks.Tx

variable [Secp] [Hashes]

/-- The verdict on several signatures when the counter, a `u8`, wraps around: 256 signatures count as none. No number
of keys or signatures makes it panic, only a mode that is not for several keys. -/
inductive WrappingVerdict (c : MultiSig) (h : Arr 32) (typ : UInt8) : Outcome TxError (Arr 32) → Prop
  | noKey {pre s post ks n x} : c.fields = pre ++ .msg s :: post →
      Recovers typ c.fee c.nonce h pre ks n → RecoverFails (presignDigest n typ c.fee c.nonce) s x →
      WrappingVerdict c h typ (.err (.hash (.secp256k1 x)))
  | tooFew {ks n} : Recovers typ c.fee c.nonce h c.fields ks n →
      c.fields.countP isSignature % 256 < c.required.toNat →
      WrappingVerdict c h typ
        (.err (.badSignatureCount c.required (UInt8.ofNat (c.fields.countP isSignature % 256))))
  | wrongMode {ks n} : Recovers typ c.fee c.nonce h c.fields ks n →
      c.required.toNat ≤ c.fields.countP isSignature % 256 →
      scriptSigner c.mode c.required.toNat ks = none → WrappingVerdict c h typ .panic
  | wrongKeys {ks n s} : Recovers typ c.fee c.nonce h c.fields ks n →
      c.required.toNat ≤ c.fields.countP isSignature % 256 →
      scriptSigner c.mode c.required.toNat ks = some s → s ≠ c.signer →
      WrappingVerdict c h typ (.err (.badSigner (hexText c.signer.1) (hexText s.1)))
  | valid {ks n} : Recovers typ c.fee c.nonce h c.fields ks n →
      c.required.toNat ≤ c.fields.countP isSignature % 256 →
      scriptSigner c.mode c.required.toNat ks = some c.signer → WrappingVerdict c h typ (.ok n)

/-! ## Calls on a signer, in this build -/

/-- The outcome of a call. -/
def releaseCall : SignerOp → Signer → Outcome TxError Signer
  | .signOrigin k, s => Release.signOrigin s k
  | .signSponsor k, s => Release.signSponsor s k
  | .appendOrigin k, s => s.appendOrigin k

/-- The signer after a sequence of calls whose errors the caller ignores. -/
def releaseAfter (s : Signer) : List SignerOp → Signer
  | [] => s
  | op :: ops =>
    match releaseCall op s with
    | .ok s' => releaseAfter s' ops
    | _ => releaseAfter s ops

/-- Walking the participants in order: signing or appending the key, stopping at an error. -/
def releaseWalk : Signer → List Participant → Outcome TxError Signer
  | s, [] => .ok s
  | s, .signs k :: ps => do
    let s' ← Release.signOrigin s k
    releaseWalk s' ps
  | s, .absent k :: ps => do
    let s' ← s.appendOrigin k
    releaseWalk s' ps

end Stacks.Spec
