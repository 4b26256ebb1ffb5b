import Verif.Spec.Transaction

/-! # Specification of signing and verification -/

namespace Stacks.Spec
open Stacks.Tx
open Stacks.C32 (Mode)

section
variable [Secp] [Hashes]

/-! ## One link of the chain of signatures -/

/-- The bytes whose digest is signed: previous hash, authorization type, fee, nonce. -/
def presignInput (h : Arr 32) (typ : UInt8) (fee nonce : UInt64) : Bytes :=
  h.1 ++ [typ] ++ beBytes 8 fee.toNat ++ beBytes 8 nonce.toNat

/-- The message signed. -/
def presignDigest (hash : Arr 32) (typ : UInt8) (fee nonce : UInt64) : Arr 32 :=
  Hashes.sha512_256 (presignInput hash typ fee nonce)

/-- The next hash: message, key encoding 0, signature. -/
def postsignDigest (message : Arr 32) (sig : Arr 65) : Arr 32 :=
  Hashes.sha512_256 (message.1 ++ [0x00] ++ sig.1)

omit [Hashes] in
/-- A signature as 65 bytes: recovery id, then 64 bytes. -/
def signatureBytes (message : Arr 32) (k : Secp.SK) : Arr 65 :=
  ⟨UInt8.ofNat (Secp.compact (Secp.sign message k)).1 :: (Secp.compact (Secp.sign message k)).2.1, by
    rw [List.length_cons, (Secp.compact _).2.2]⟩

omit [Hashes] in
/-- Recovering a public key from 65 bytes and a message. -/
def RecoversKey (message : Arr 32) (sig : Arr 65) (k : Secp.PK) : Prop :=
  ∃ (id : Fin 4) (rest : Bytes) (r : Secp.RSig), sig.1 = UInt8.ofNat id :: rest ∧
    Secp.fromCompact rest id = .ok r ∧ Secp.recover message r = .ok k

/-- The chain of hashes along the fields of a multi-sig condition: keys are collected, signatures
are recovered to keys and extend the chain. -/
inductive Recovers (typ : UInt8) (fee nonce : UInt64) : Arr 32 → List AuthField → List Secp.PK → Arr 32 → Prop where
  | nil (h : Arr 32) : Recovers typ fee nonce h [] [] h
  | pk (h h' : Arr 32) (k : Secp.PK) (fs : List AuthField) (ks : List Secp.PK) :
      Recovers typ fee nonce h fs ks h' → Recovers typ fee nonce h (.pk k :: fs) (k :: ks) h'
  | msg (h h' : Arr 32) (s : Arr 65) (k : Secp.PK) (fs : List AuthField) (ks : List Secp.PK) :
      RecoversKey (presignDigest h typ fee nonce) s k →
      Recovers typ fee nonce (postsignDigest (presignDigest h typ fee nonce) s) fs ks h' →
      Recovers typ fee nonce h (.msg s :: fs) (k :: ks) h'

/-! ## Who may sign -/

/-- HASH160. -/
def hash160Of (bs : Bytes) : Arr 20 := Hashes.ripemd160 (Hashes.sha256 bs).1

/-- The signer of a single key: hash of the key, or of the witness program of the key. -/
def keySigner (mode : Mode) (k : Secp.PK) : Option (Arr 20) :=
  match mode with
  | .p2pkh => some (hash160Of (Secp.serialize k).1)
  | .p2wpkh => some (hash160Of (0x00 :: 0x14 :: (hash160Of (Secp.serialize k).1).1))
  | _ => none

/-- The signer of `m` of the given keys: hash of the script, or of its witness program. -/
def scriptSigner (mode : Mode) (m : Nat) (ks : List Secp.PK) : Option (Arr 20) :=
  match mode with
  | .p2sh => some (hash160Of (multisigScriptSpec m ks))
  | .p2wsh => some (hash160Of (0x00 :: 0x20 :: (Hashes.sha256 (multisigScriptSpec m ks)).1))
  | _ => none

/-! ## Counting -/

/-- Is it a signature? -/
def isSignature : AuthField → Bool
  | .pk _ => false
  | .msg _ => true

/-- The number of signatures present. -/
def signatureCount : Spending → Nat
  | .single c => if c.signature = noSignature then 0 else 1
  | .multi c => c.fields.countP isSignature

/-- The number of signatures required. -/
def requiredCount : Spending → Nat
  | .single _ => 1
  | .multi c => c.required.toNat

/-- The counts of both parts are within the required numbers. -/
def WithinRequired (a : Auth) : Prop :=
  signatureCount a.origin ≤ requiredCount a.origin ∧
    ∀ p, a.sponsor = .ok p → signatureCount p ≤ requiredCount p

/-- The condition with a signature set, or added. -/
def withSignature : Spending → Arr 65 → Spending
  | .single c, sig => .single { c with signature := sig }
  | .multi c, sig => .multi { c with fields := c.fields ++ [.msg sig] }

/-- The condition with a public key added (multi-sig only). -/
def withKey : Spending → Secp.PK → Spending
  | .single c, _ => .single c
  | .multi c, k => .multi { c with fields := c.fields ++ [.pk k] }

/-! ## Flows -/

/-- A participant of a multi-sig: one who signs, or one of whom only the key is known. -/
inductive Participant where
  | signs (k : Secp.SK)
  | absent (k : Secp.PK)

/-- The participant's public key. -/
def Participant.key : Participant → Secp.PK
  | .signs k => Secp.pub k
  | .absent k => k

/-- Does the participant sign? -/
def Participant.isSigner : Participant → Bool
  | .signs _ => true
  | .absent _ => false

/-- Walking the participants in order: signing or appending the key, stopping at an error. -/
def walk : Signer → List Participant → Outcome TxError Signer
  | s, [] => .ok s
  | s, .signs k :: ps => do
    let s' ← s.signOrigin k
    walk s' ps
  | s, .absent k :: ps => do
    let s' ← s.appendOrigin k
    walk s' ps

/-- A call on a signer. -/
inductive SignerOp where
  | signOrigin (k : Secp.SK)
  | signSponsor (k : Secp.SK)
  | appendOrigin (k : Secp.PK)

/-- The outcome of a call. -/
def SignerOp.call : SignerOp → Signer → Outcome TxError Signer
  | .signOrigin k, s => s.signOrigin k
  | .signSponsor k, s => s.signSponsor k
  | .appendOrigin k, s => s.appendOrigin k

/-- The signer after a sequence of calls whose errors the caller ignores. -/
def after (s : Signer) : List SignerOp → Signer
  | [] => s
  | op :: ops =>
    match op.call s with
    | .ok s' => after s' ops
    | _ => after s ops

/-- Signing the sponsor with each key in turn. -/
def signSponsors : Signer → List Secp.SK → Outcome TxError Signer
  | s, [] => .ok s
  | s, k :: ks => do
    let s' ← s.signSponsor k
    signSponsors s' ks

end

end Stacks.Spec
