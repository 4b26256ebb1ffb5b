import Verif.Spec.Ecdsa
import Verif.Spec.Signing
import Verif.Proofs.Basic

/-! # What a signature is bound to

A signature that is accepted twice, for the same account, was accepted for the same message, unless
hashes collide. The collisions are always of two byte strings that are at hand: that *some* two
strings have the same hash says nothing, as there are more strings than hashes. -/

namespace Stacks.Spec
open Stacks.Tx
open Stacks.C32 (Mode)

section
variable [Secp] [Hashes]

/-- These two byte strings differ, and their SHA-512/256 are congruent modulo the order of the group:
equal, or as numbers exactly the order apart (`C99_congruent`). -/
def DigestsMeet (x y : Bytes) : Prop :=
  x ≠ y ∧ beVal (Hashes.sha512_256 x).1 ≡ beVal (Hashes.sha512_256 y).1 [MOD Ecdsa.order]

/-- What is hashed for the account of a key: the key, or its witness program. -/
def keyProgram (mode : Mode) (k : Secp.PK) : Bytes :=
  match mode with
  | .p2wpkh => 0x00 :: 0x14 :: (hash160Of (Secp.serialize k).1).1
  | _ => (Secp.serialize k).1

/-- These two keys are different and yet have the same account: the same HASH160, or different programs
with the same HASH160. -/
def KeysCollide (mode mode' : Mode) (k k' : Secp.PK) : Prop :=
  k ≠ k' ∧ (hash160Of (Secp.serialize k).1 = hash160Of (Secp.serialize k').1 ∨
    (keyProgram mode k ≠ keyProgram mode' k' ∧ hash160Of (keyProgram mode k) = hash160Of (keyProgram mode' k')))

/-- What is hashed for the account of a script: the script, or its witness program. -/
def scriptProgram (mode : Mode) (script : Bytes) : Bytes :=
  match mode with
  | .p2wsh => 0x00 :: 0x20 :: (Hashes.sha256 script).1
  | _ => script

/-- These two scripts are different and yet have the same account: the same SHA-256, or different
programs with the same HASH160. -/
def AccountsCollide (mode mode' : Mode) (x y : Bytes) : Prop :=
  x ≠ y ∧ (Hashes.sha256 x = Hashes.sha256 y ∨
    (scriptProgram mode x ≠ scriptProgram mode' y ∧ hash160Of (scriptProgram mode x) = hash160Of (scriptProgram mode' y)))

/-- The keys recovered from the same signatures, under two messages, are different keys of the same
account. -/
def SignersCollide (h : Arr 32) (typ : UInt8) (h' : Arr 32) (typ' : UInt8) : Spending → Spending → Prop
  | .single c, .single c' => ∃ k k', RecoversKey (presignDigest h typ c.fee c.nonce) c.signature k ∧
      RecoversKey (presignDigest h' typ' c'.fee c'.nonce) c'.signature k' ∧ KeysCollide c.mode c'.mode k k'
  | .multi c, .multi c' => ∃ ks ks' n n', Recovers typ c.fee c.nonce h c.fields ks n ∧
      Recovers typ' c'.fee c'.nonce h' c'.fields ks' n' ∧
      AccountsCollide c.mode c'.mode (multisigScriptSpec c.required.toNat ks) (multisigScriptSpec c'.required.toNat ks')
  | _, _ => False

omit [Hashes] in
/-- Two conditions carry the same signatures, at least one, for the same account hash. -/
def SameSignatures : Spending → Spending → Prop
  | .single c, .single c' => c.signature = c'.signature ∧ c.signer = c'.signer
  | .multi c, .multi c' => c.fields = c'.fields ∧ c.signer = c'.signer ∧ 0 < c.fields.countP isSignature
  | _, _ => False

/-- The string first signed by a condition: the previous hash, the role (4 for the origin, 5 for the
sponsor), fee and nonce. -/
def firstSigned (h : Arr 32) (typ : UInt8) (c : Spending) : Bytes := presignInput h typ c.fee c.nonce

/-! ## The chain of hashes from a transaction to its sponsor -/

/-- The strings hashed along the fields. -/
def hashedAlong (typ : UInt8) (fee nonce : UInt64) : Arr 32 → List AuthField → List Bytes
  | _, [] => []
  | h, .pk _ :: fs => hashedAlong typ fee nonce h fs
  | h, .msg s :: fs => presignInput h typ fee nonce :: ((presignDigest h typ fee nonce).1 ++ [0x00] ++ s.1) ::
      hashedAlong typ fee nonce (postsignDigest (presignDigest h typ fee nonce) s) fs

omit [Hashes] in
/-- The fields of a condition; a single signature is one field. -/
def fieldsSigned : Spending → List AuthField
  | .single c => [.msg c.signature]
  | .multi c => c.fields

omit [Hashes] in
/-- The signatures of a condition. -/
def signaturesOf (c : Spending) : List AuthField := (fieldsSigned c).filter isSignature

/-- The strings hashed from a transaction to the hash its sponsor signs. -/
def hashedForSponsor (t : Transaction) : List Bytes :=
  signingPreimage t :: hashedAlong 4 t.auth.origin.fee t.auth.origin.nonce
    (Hashes.sha512_256 (signingPreimage t)) (fieldsSigned t.auth.origin)

/-- Two different strings, one of each list, with the same SHA-512/256. -/
def HashCollision (xs ys : List Bytes) : Prop :=
  ∃ x ∈ xs, ∃ y ∈ ys, x ≠ y ∧ Hashes.sha512_256 x = Hashes.sha512_256 y

end

end Stacks.Spec
