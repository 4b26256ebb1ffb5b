import Verif.Spec.Signing

/-! # Bitcoin's multi-signature scripts, and how a node checks a transaction it receives (SIP-005)

The scripts are those of Bitcoin, where small numbers have their own instructions and other numbers
are pushed as data. The check starts from the bytes received. -/

namespace Stacks.Spec
open Stacks.Tx
open Stacks.Clarity (CV)
open Stacks.C32 (Mode)

/-! ## Scripts -/

/-- A non-negative number as script data: little-endian without superfluous bytes; the highest bit is
the sign, so a zero byte follows if it would be set. -/
def scriptNumber (n : Nat) : Bytes :=
  if n = 0 then []
  else if n < 0x80 then [UInt8.ofNat n]
  else if n < 0x100 then [UInt8.ofNat n, 0x00]
  else UInt8.ofNat n :: scriptNumber (n / 0x100)
termination_by n

/-- The instruction that pushes a number: `OP_0`, `OP_1` to `OP_16`, or a push of data. -/
def pushNumber (n : Nat) : Bytes :=
  if n = 0 then [0x00]
  else if n ≤ 16 then [UInt8.ofNat (0x50 + n)]
  else UInt8.ofNat (scriptNumber n).length :: scriptNumber n

section
variable [Secp]

/-- The instruction that pushes a compressed public key. -/
def pushKey (k : Secp.PK) : Bytes := 0x21 :: (Secp.serialize k).1

/-- `m <keys> n OP_CHECKMULTISIG`. -/
def bitcoinScript (m : Nat) (keys : List Secp.PK) : Bytes :=
  pushNumber m ++ keys.flatMap pushKey ++ pushNumber keys.length ++ [0xae]

variable [Hashes]

/-- Pay to script hash, or to the witness program of the script. -/
def bitcoinSigner (mode : Mode) (m : Nat) (keys : List Secp.PK) : Option (Arr 20) :=
  match mode with
  | .p2sh => some (hash160Of (bitcoinScript m keys))
  | .p2wsh => some (hash160Of (0x00 :: 0x20 :: (Hashes.sha256 (bitcoinScript m keys)).1))
  | _ => none

/-- What is hashed for a witness script. -/
def witnessProgram (script : Bytes) : Bytes := 0x00 :: 0x20 :: (Hashes.sha256 script).1

/-- These two scripts are different and yet have the same hash: the same HASH160, or for witness scripts
the same SHA-256, or different ones and the same HASH160 of the witness programs. (That some two byte
strings collide says nothing, there are more of them than hashes; it is these two.) -/
def ScriptsCollide (mode : Mode) (x y : Bytes) : Prop :=
  x ≠ y ∧
  match mode with
  | .p2wsh => Hashes.sha256 x = Hashes.sha256 y ∨
      (witnessProgram x ≠ witnessProgram y ∧ hash160Of (witnessProgram x) = hash160Of (witnessProgram y))
  | _ => hash160Of x = hash160Of y

/-! ## The check -/

/-- A spending condition is satisfied, from one hash of the chain of signatures to another: all
signatures recover to keys, there are as many as required, no more and no less, and the keys hash to
the signer. -/
inductive Satisfied (typ : UInt8) (h : Arr 32) : Spending → Arr 32 → Prop
  | single {c k} : RecoversKey (presignDigest h typ c.fee c.nonce) c.signature k →
      keySigner c.mode k = some c.signer →
      Satisfied typ h (.single c) (postsignDigest (presignDigest h typ c.fee c.nonce) c.signature)
  | multi {c ks n} : Recovers typ c.fee c.nonce h c.fields ks n →
      c.fields.countP isSignature = c.required.toNat →
      bitcoinSigner c.mode c.required.toNat ks = some c.signer → Satisfied typ h (.multi c) n

/-- An authorization is satisfied, given the hash of what is signed: the origin with type byte 4, then
the sponsor, if any, with type byte 5. -/
inductive SatisfiedAuth (h : Arr 32) : Auth → Prop
  | standard {o n} : Satisfied 4 h o n → SatisfiedAuth h (.standard o)
  | sponsored {o s n n'} : Satisfied 4 h o n → Satisfied 5 n s n' → SatisfiedAuth h (.sponsored o s)

/-- Codes that compare amounts. -/
def comparesAmounts : ConditionCode → Bool
  | .hasNot | .has => false
  | _ => true

/-- Amounts are compared, and tokens are owned or not. -/
def CodeFits : Condition → Prop
  | .stx _ _ code => comparesAmounts code = true
  | .fungible _ _ code _ => comparesAmounts code = true
  | .nonFungible _ _ code _ => comparesAmounts code = false

/-- A transfer goes to an account. -/
def ToAccount : Payload → Prop
  | .tokenTransfer p => IsPrincipal p.address
  | .contractCall _ => True

/-- A node accepts the bytes: they are a transaction and nothing else, each condition's code fits its
kind, transfers go to accounts, and the authorization is satisfied. -/
def NodeAccepts (parse : Arr 33 → Option Secp.PK) (bytes : Bytes) : Prop :=
  ∃ t, (readTransaction parse).run bytes = some (t, []) ∧ (∀ c ∈ t.postConditions, CodeFits c) ∧
    ToAccount t.payload ∧ SatisfiedAuth (Hashes.sha512_256 (signingPreimage t)) t.auth

/-- Post-conditions and payload that a node accepts. -/
def AcceptableBody (conditions : List Condition) (payload : Payload) : Prop :=
  conditions.length < 2 ^ 32 ∧ (∀ c ∈ conditions, WellFormedCondition c ∧ CodeFits c) ∧
    WellFormedPayload payload ∧ ToAccount payload

/-! ## What the crate's own verification does not check -/

/-- The number of signatures is exactly the one required. -/
def ExactSpending : Spending → Prop
  | .single _ => True
  | .multi c => c.fields.countP isSignature = c.required.toNat

/-- The numbers in the script are between 1 and 16. -/
def SmallScript : Spending → Prop
  | .single _ => True
  | .multi c => (1 ≤ c.required.toNat ∧ c.required.toNat ≤ 16) ∧ 1 ≤ c.fields.length ∧ c.fields.length ≤ 16

/-- Of origin and sponsor. -/
def BothParts (P : Spending → Prop) : Auth → Prop
  | .standard o => P o
  | .sponsored o s => P o ∧ P s

end

end Stacks.Spec
