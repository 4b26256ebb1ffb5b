import Verif.Spec.Hex
import Verif.Spec.Signing
import Verif.Spec.TransactionErrors

/-! # The verdict of verification, in every case

A verdict is what the caller sees: the next hash, an error, or a panic. -/

namespace Stacks.Spec
open Stacks.Tx

section
variable [Secp]

/-- No public key can be recovered: the recovery id is not 0..3, or the crate `secp256k1` rejects
the 64 bytes, or it recovers no key. -/
inductive RecoverFails (message : Arr 32) (sig : Arr 65) : Secp.Err → Prop
  | id {b rest} : sig.1 = b :: rest → 4 ≤ b.toNat → RecoverFails message sig Secp.invalidRecId
  | bytes {id : Fin 4} {rest e} : sig.1 = UInt8.ofNat id :: rest → Secp.fromCompact rest id = .error e →
      RecoverFails message sig e
  | key {id : Fin 4} {rest r e} : sig.1 = UInt8.ofNat id :: rest → Secp.fromCompact rest id = .ok r →
      Secp.recover message r = .error e → RecoverFails message sig e

variable [Hashes]

/-- A single signature: the key is recovered and its hash compared with the signer. -/
inductive SingleVerdict (c : SingleSig) (h : Arr 32) (typ : UInt8) : Outcome TxError (Arr 32) → Prop
  | noKey {x} : RecoverFails (presignDigest h typ c.fee c.nonce) c.signature x →
      SingleVerdict c h typ (.err (.hash (.secp256k1 x)))
  | wrongMode {k} : RecoversKey (presignDigest h typ c.fee c.nonce) c.signature k → keySigner c.mode k = none →
      SingleVerdict c h typ .panic
  | wrongKey {k s} : RecoversKey (presignDigest h typ c.fee c.nonce) c.signature k → keySigner c.mode k = some s →
      s ≠ c.signer → SingleVerdict c h typ (.err (.badSigner (hexText c.signer.1) (hexText s.1)))
  | valid {k} : RecoversKey (presignDigest h typ c.fee c.nonce) c.signature k → keySigner c.mode k = some c.signer →
      SingleVerdict c h typ (.ok (postsignDigest (presignDigest h typ c.fee c.nonce) c.signature))

/-- Several signatures: the keys are recovered along the chain, the signatures are counted (in a
`u8`), and the hash of the script of all keys is compared with the signer. -/
inductive MultiVerdict (c : MultiSig) (h : Arr 32) (typ : UInt8) : Outcome TxError (Arr 32) → Prop
  | noKey {pre s post ks n x} : c.fields = pre ++ .msg s :: post → pre.countP isSignature < 256 →
      Recovers typ c.fee c.nonce h pre ks n → RecoverFails (presignDigest n typ c.fee c.nonce) s x →
      MultiVerdict c h typ (.err (.hash (.secp256k1 x)))
  | tooMany {pre s post ks n} : c.fields = pre ++ .msg s :: post → pre.countP isSignature = 255 →
      Recovers typ c.fee c.nonce h (pre ++ [.msg s]) ks n → MultiVerdict c h typ .panic
  | tooFew {ks n} : Recovers typ c.fee c.nonce h c.fields ks n → c.fields.countP isSignature < c.required.toNat →
      MultiVerdict c h typ (.err (.badSignatureCount c.required (UInt8.ofNat (c.fields.countP isSignature))))
  | noScript {ks n} : Recovers typ c.fee c.nonce h c.fields ks n → c.required.toNat ≤ c.fields.countP isSignature →
      c.fields.countP isSignature < 256 →
      (175 < c.required.toNat ∨ 175 < ks.length % 256 ∨ scriptSigner c.mode c.required.toNat ks = none) →
      MultiVerdict c h typ .panic
  | wrongKeys {ks n s} : Recovers typ c.fee c.nonce h c.fields ks n →
      c.required.toNat ≤ c.fields.countP isSignature → c.fields.countP isSignature < 256 →
      c.required.toNat ≤ 175 → ks.length % 256 ≤ 175 →
      scriptSigner c.mode c.required.toNat ks = some s → s ≠ c.signer →
      MultiVerdict c h typ (.err (.badSigner (hexText c.signer.1) (hexText s.1)))
  | valid {ks n} : Recovers typ c.fee c.nonce h c.fields ks n →
      c.required.toNat ≤ c.fields.countP isSignature → c.fields.countP isSignature < 256 →
      c.required.toNat ≤ 175 → ks.length % 256 ≤ 175 →
      scriptSigner c.mode c.required.toNat ks = some c.signer → MultiVerdict c h typ (.ok n)

/-- A spending condition of either kind. -/
inductive SpendingVerdict (h : Arr 32) (typ : UInt8) : Spending → Outcome TxError (Arr 32) → Prop
  | single {c o} : SingleVerdict c h typ o → SpendingVerdict h typ (.single c) o
  | multi {c o} : MultiVerdict c h typ o → SpendingVerdict h typ (.multi c) o

/-- The origin of a transaction, from the hash of what is signed, with type byte 4. -/
inductive OriginVerdict (t : Transaction) : Outcome TxError (Arr 32) → Prop
  | body {e} : BodyFails t e → OriginVerdict t (.err (.clarity e))
  | origin {o} : EncodableBody t →
      SpendingVerdict (Hashes.sha512_256 (signingPreimage t)) 4 t.auth.origin o → OriginVerdict t o

/-- A whole authorization, given the hash of what is signed: the sponsor (type byte 5) continues
from the hash the origin leaves. A standard authorization is not checked. -/
inductive AuthVerdict (h : Arr 32) : Auth → Outcome TxError Unit → Prop
  | standard {o} : AuthVerdict h (.standard o) (.ok ())
  | originFails {o s e} : SpendingVerdict h 4 o (.err e) → AuthVerdict h (.sponsored o s) (.err e)
  | originPanics {o s} : SpendingVerdict h 4 o .panic → AuthVerdict h (.sponsored o s) .panic
  | sponsorFails {o s n e} : SpendingVerdict h 4 o (.ok n) → SpendingVerdict n 5 s (.err e) →
      AuthVerdict h (.sponsored o s) (.err e)
  | sponsorPanics {o s n} : SpendingVerdict h 4 o (.ok n) → SpendingVerdict n 5 s .panic →
      AuthVerdict h (.sponsored o s) .panic
  | valid {o s n n'} : SpendingVerdict h 4 o (.ok n) → SpendingVerdict n 5 s (.ok n') →
      AuthVerdict h (.sponsored o s) (.ok ())

/-! ## One step of a signer -/

omit [Hashes] in
/-- The fee of a condition. -/
def feeOf : Spending → UInt64
  | .single c => c.fee
  | .multi c => c.fee

omit [Hashes] in
/-- The nonce of a condition. -/
def nonceOf : Spending → UInt64
  | .single c => c.nonce
  | .multi c => c.nonce

omit [Hashes] in
/-- The origin's condition. -/
def originOf : Auth → Spending
  | .standard o => o
  | .sponsored o _ => o

omit [Hashes] in
/-- The authorization with another origin. -/
def replaceOrigin : Auth → Spending → Auth
  | .standard _, c => .standard c
  | .sponsored _ s, c => .sponsored c s

/-- The message a key signs. -/
def messageOf (h : Arr 32) (typ : UInt8) (c : Spending) : Arr 32 := presignDigest h typ (feeOf c) (nonceOf c)

/-- The condition with the signature of `k` over the chain hash `h`. -/
def signedBy (h : Arr 32) (typ : UInt8) (k : Secp.SK) (c : Spending) : Spending :=
  withSignature c (signatureBytes (messageOf h typ c) k)

/-- The chain hash after that signature. -/
def chainHash (h : Arr 32) (typ : UInt8) (k : Secp.SK) (c : Spending) : Arr 32 :=
  postsignDigest (messageOf h typ c) (signatureBytes (messageOf h typ c) k)

end

end Stacks.Spec
