import Verif.Model.Basic

/-! # `stacks/src/crypto/hash.rs`

The digest functions of the crates `ring` and `ripemd` and the signature scheme of the crate
`secp256k1` are parameters of the model (classes `Hashes` and `Secp`). -/

namespace Stacks

/-- The digests used by hash.rs:9-13. Output sizes are those of the algorithms. -/
class Hashes where
  sha256 : Bytes → Arr 32
  sha512_256 : Bytes → Arr 32
  ripemd160 : Bytes → Arr 20

/-- The part of the crate `secp256k1` used by the repository.

* `sign m k` is `Secp256k1::sign_ecdsa_recoverable(&Message(m), &k)`;
* `recover m s` is `Secp256k1::recover_ecdsa(&Message(m), &s)`;
* `compact s` is `RecoverableSignature::serialize_compact`; recovery ids are 0..3;
* `fromCompact bs id` is `RecoverableSignature::from_compact(bs, id)`;
* `invalidRecId` is the error of `RecoveryId::from_i32` outside 0..3. -/
class Secp where
  SK : Type
  PK : Type
  RSig : Type
  Err : Type
  pub : SK → PK
  serialize : PK → Arr 33
  sign : Arr 32 → SK → RSig
  recover : Arr 32 → RSig → Except Err PK
  compact : RSig → Fin 4 × Arr 64
  fromCompact : Bytes → Fin 4 → Except Err RSig
  invalidRecId : Err

/-- `Result<α, secp256k1::Error>` as an outcome. -/
def ofExcept {ε ε' α : Type} (f : ε → ε') : Except ε α → Outcome ε' α
  | .ok a => .ok a
  | .error e => .err (f e)

section Digests
variable [Hashes]

/-- hash.rs:107-117 `Sha256Hash::from_slice`. -/
def sha256Hash (bs : Bytes) : Arr 32 := Hashes.sha256 bs

/-- hash.rs:131-142 `DSha256Hash::from_slice`. -/
def dsha256Hash (bs : Bytes) : Arr 32 := sha256Hash (sha256Hash bs).1

/-- hash.rs:156-166 `Sha512_256Hash::from_slice`. -/
def sha512_256Hash (bs : Bytes) : Arr 32 := Hashes.sha512_256 bs

/-- hash.rs:145-150 `checksum` (same code at 120-125 and 169-174): the first four bytes.
`&bytes[0..4]` cannot be out of range on a 32-byte array. -/
def checksum32 (h : Arr 32) : Arr 4 := ⟨h.1.take 4, by rw [List.length_take, h.2]; rfl⟩

/-- hash.rs:180-187 `Hash160::new`: panics unless given 20 bytes. -/
def hash160New {ε : Type} (bs : Bytes) : Outcome ε (Arr 20) := copyFromSlice 20 bs

/-- hash.rs:190-200 `Hash160::from_slice`. -/
def hash160 (bs : Bytes) : Arr 20 := Hashes.ripemd160 (sha256Hash bs).1

/-- hash.rs:262-268 `SignatureHash::from_slice`. -/
def signatureHash (bs : Bytes) : Arr 32 := sha512_256Hash bs

/-- The bytes hashed by `make_presign_hash`, hash.rs:316-321. -/
def presignBytes (hash : Arr 32) (typ : UInt8) (fee nonce : UInt64) : Bytes :=
  hash.1 ++ [typ] ++ be64 fee ++ be64 nonce

/-- hash.rs:315-324 `SignatureHash::make_presign_hash`. -/
def makePresignHash (hash : Arr 32) (typ : UInt8) (fee nonce : UInt64) : Arr 32 :=
  signatureHash (presignBytes hash typ fee nonce)

/-- The bytes hashed by `make_postsign_hash`, hash.rs:330-334. -/
def postsignBytes (hash : Arr 32) (sig : Arr 65) : Bytes := hash.1 ++ [0x00] ++ sig.1

/-- hash.rs:326-337 `SignatureHash::make_postsign_hash`. -/
def makePostsignHash (hash : Arr 32) (sig : Arr 65) : Arr 32 :=
  signatureHash (postsignBytes hash sig)

end Digests

/-- hash.rs:22-31 `enum Error` (`TryFromInt` is kept although no modelled path produces it). -/
inductive HashError (E : Type) where
  | invalidMessageSigLength (n : Nat)
  | secp256k1 (e : E)
  | tryFromInt
deriving DecidableEq, Repr

section Signatures
variable [Secp]

/-- hash.rs:224-238 `MessageSignature::from_slice`. -/
def messageSigFromSlice (bs : Bytes) : Outcome (HashError Secp.Err) (Arr 65) :=
  if bs.length ≠ 65 then .err (.invalidMessageSigLength bs.length)
  else copyFromSlice 65 bs

/-- hash.rs:241-249 `MessageSignature::from_recov`. `u8::try_from(id.to_i32())?` cannot fail,
recovery ids being 0..3. -/
def messageSigFromRecov (r : Secp.RSig) : Outcome (HashError Secp.Err) (Arr 65) :=
  let (id, bytes) := Secp.compact r
  messageSigFromSlice ([UInt8.ofNat id.1] ++ bytes.1)

/-- hash.rs:252-256 `MessageSignature::into_recov`. -/
def messageSigIntoRecov (s : Arr 65) : Outcome (HashError Secp.Err) Secp.RSig := do
  let b0 ← idx s.1 0
  let id ← (if h : b0.toNat < 4 then .ok ⟨b0.toNat, h⟩
            else .err (.secp256k1 Secp.invalidRecId) : Outcome (HashError Secp.Err) (Fin 4))
  let rest ← sliceFrom s.1 1
  ofExcept .secp256k1 (Secp.fromCompact rest id)

variable [Hashes]

/-- hash.rs:270-290 `SignatureHash::next_signature`. (`Message::from_digest_slice` succeeds
on 32 bytes.) -/
def nextSignature (hash : Arr 32) (typ : UInt8) (fee nonce : UInt64) (sk : Secp.SK) :
    Outcome (HashError Secp.Err) (Arr 65 × Arr 32) := do
  let preSign := makePresignHash hash typ fee nonce
  let recoverable := Secp.sign preSign sk
  let signature ← messageSigFromRecov recoverable
  pure (signature, makePostsignHash preSign signature)

/-- hash.rs:292-313 `SignatureHash::next_verify`. -/
def nextVerify (hash : Arr 32) (typ : UInt8) (fee nonce : UInt64) (signature : Arr 65) :
    Outcome (HashError Secp.Err) (Secp.PK × Arr 32) := do
  let preSign := makePresignHash hash typ fee nonce
  let recoverable ← messageSigIntoRecov signature
  let pubk ← ofExcept .secp256k1 (Secp.recover preSign recoverable)
  pure (pubk, makePostsignHash preSign signature)

end Signatures

end Stacks
