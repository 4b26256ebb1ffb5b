import Verif.Model.Clarity
import Verif.Model.Hash
import Verif.Model.C32

/-! # `stacks/src/transaction/auth.rs` -/

namespace Stacks.Tx
open Stacks.C32 (Mode hashP2pkh hashP2wpkh hashP2sh hashP2wsh)

/-- transaction/mod.rs:48-78 `enum Error` (`Hex` and `TryFromInt` are produced by no modelled
path; `Hex` is left out). `E` is `secp256k1::Error`. -/
inductive Error (E : Type) where
  | originOversign
  | originPostSponsorSign
  | originPostSponsorAppend
  | sponsorOversign
  | badSigner (expected received : Str)
  | badSignatureCount (required count : UInt8)
  | badSpendingConditionModification
  | hash (e : HashError E)
  | clarity (e : Clarity.Error)
  | secp256k1 (e : E)
  | tryFromInt
deriving DecidableEq

/-- auth.rs:28-31. -/
def authTypeStandard : UInt8 := 0x04
def authTypeSponsored : UInt8 := 0x05
/-- auth.rs:33-36. -/
def authEncodingPublicKey : UInt8 := 0x00
def authEncodingSignature : UInt8 := 0x02

/-- `MessageSignature::default()`, hash.rs:64-68: 65 zero bytes. -/
def defaultSignature : Arr 65 := zeros 65

section
variable [Secp]

/-- auth.rs:358-365 `enum AuthField`. -/
inductive AuthField where
  | pk (k : Secp.PK)
  | msg (s : Arr 65)

/-- auth.rs:221-235 `struct SpendingConditionStandard`. -/
structure SingleSig where
  mode : Mode
  fee : UInt64
  nonce : UInt64
  signer : Arr 20
  signature : Arr 65
deriving DecidableEq

/-- auth.rs:367-383 `struct SpendingConditionMultiSig`. -/
structure MultiSig where
  mode : Mode
  fee : UInt64
  nonce : UInt64
  signer : Arr 20
  fields : List AuthField
  required : UInt8

/-- auth.rs:38-62: `Box<dyn SpendingCondition>`, as the sum of the crate's two implementations. -/
inductive Spending where
  | single (c : SingleSig)
  | multi (c : MultiSig)

/-- auth.rs:64-75 `enum Modification`. -/
inductive Modification where
  | setPublicKey (k : Secp.PK)
  | setSignature (s : Arr 65)
  | addPublicKey (k : Secp.PK)
  | addSignature (s : Arr 65)

/-- auth.rs:77-84 `enum Auth`. -/
inductive Auth where
  | standard (origin : Spending)
  | sponsored (origin sponsor : Spending)

/-- The error type of auth.rs. -/
abbrev TxError := Error Secp.Err

/-! ## Single signature -/

/-- auth.rs:344-356 `SpendingConditionStandard::default`. -/
def SingleSig.default : SingleSig := ⟨.p2pkh, 0, 0, zeros 20, defaultSignature⟩

/-- auth.rs:259-269 `SpendingConditionStandard::encode`. -/
def SingleSig.encode (c : SingleSig) : Outcome Clarity.Error Bytes :=
  .ok ([c.mode.toU8] ++ c.signer.1 ++ be64 c.nonce ++ be64 c.fee ++ [authEncodingPublicKey] ++ c.signature.1)

/-- auth.rs:300-309 `SpendingConditionStandard::modify`. -/
def SingleSig.modify (c : SingleSig) : Modification → Outcome TxError SingleSig
  | .setSignature sig => .ok { c with signature := sig }
  | _ => .err .badSpendingConditionModification

/-- auth.rs:311-315 `SpendingConditionStandard::reset`. -/
def SingleSig.reset (c : SingleSig) : SingleSig := { c with fee := 0, nonce := 0, signature := defaultSignature }

/-- auth.rs:317-319 `SpendingConditionStandard::signatures`. -/
def SingleSig.signatures (c : SingleSig) : UInt16 := if c.signature ≠ defaultSignature then 1 else 0

/-! ## Multiple signatures -/

/-- auth.rs:417-428: one authorization field. -/
def AuthField.encode : AuthField → Bytes
  | .pk k => authEncodingPublicKey :: (Secp.serialize k).1
  | .msg s => authEncodingSignature :: s.1

/-- auth.rs:407-433 `SpendingConditionMultiSig::encode`. -/
def MultiSig.encode (c : MultiSig) : Outcome Clarity.Error Bytes := do
  let n ← Clarity.lenBytes c.fields.length
  pure ([c.mode.toU8] ++ c.signer.1 ++ be64 c.nonce ++ be64 c.fee ++ n ++ c.fields.flatMap AuthField.encode ++
    beBytes 2 c.required.toNat)

/-- auth.rs:484-496 `SpendingConditionMultiSig::modify`. -/
def MultiSig.modify (c : MultiSig) : Modification → Outcome TxError MultiSig
  | .addSignature sig => .ok { c with fields := c.fields ++ [.msg sig] }
  | .addPublicKey k => .ok { c with fields := c.fields ++ [.pk k] }
  | _ => .err .badSpendingConditionModification

/-- auth.rs:498-502 `SpendingConditionMultiSig::reset`. -/
def MultiSig.reset (c : MultiSig) : MultiSig := { c with fee := 0, nonce := 0, fields := [] }

/-- auth.rs:505-511: the counting loop; `count` is a `u16`, so the addition can overflow. -/
def countSignatures {ε : Type} : List AuthField → UInt16 → Outcome ε UInt16
  | [], count => .ok count
  | .pk _ :: fs, count => countSignatures fs count
  | .msg _ :: fs, count =>
    if count.toNat + 1 < 65536 then countSignatures fs (count + 1) else .panic

/-- auth.rs:504-512 `SpendingConditionMultiSig::signatures`. -/
def MultiSig.signatures {ε : Type} (c : MultiSig) : Outcome ε UInt16 := countSignatures c.fields 0

variable [Hashes]

/-- auth.rs:239-256 `SpendingConditionStandard::new`. -/
def SingleSig.new {ε : Type} (pk : Secp.PK) (fee nonce : UInt64) (mode : Mode) : Outcome ε SingleSig := do
  let bytes := (Secp.serialize pk).1
  let signer ← (match mode with
    | .p2pkh => .ok (hashP2pkh bytes)
    | .p2wpkh => .ok (hashP2wpkh bytes)
    | _ => .panic : Outcome ε (Arr 20))
  pure ⟨mode, fee, nonce, signer, defaultSignature⟩

/-- auth.rs:281-298 `SpendingConditionStandard::verify`. -/
def SingleSig.verify (c : SingleSig) (hash : Arr 32) (typ : UInt8) : Outcome TxError (Arr 32) := do
  let (pk, next) ← (nextVerify hash typ c.fee c.nonce c.signature).mapErr Error.hash
  let signer ← (match c.mode with
    | .p2pkh => .ok (hashP2pkh (Secp.serialize pk).1)
    | .p2wpkh => .ok (hashP2wpkh (Secp.serialize pk).1)
    | _ => .panic : Outcome TxError (Arr 20))
  if signer ≠ c.signer then
    .err (.badSigner (Hex.bytesToHex c.signer.1) (Hex.bytesToHex signer.1))
  else pure next

/-- auth.rs:386-404 `SpendingConditionMultiSig::new`. -/
def MultiSig.new {ε : Type} (pks : List Secp.PK) (fee nonce : UInt64) (required : UInt8) (mode : Mode) :
    Outcome ε MultiSig := do
  let signer ← (match mode with
    | .p2sh => hashP2sh required pks
    | .p2wsh => hashP2wsh required pks
    | _ => .panic : Outcome ε (Arr 20))
  pure ⟨mode, fee, nonce, signer, [], required⟩

/-- auth.rs:449-463: the loop of `verify`: collects the public keys (in order), threads the hash,
and counts in a `u8` (`count` is compared with `self.required`), which can overflow. -/
def verifyFields (typ : UInt8) (fee nonce : UInt64) :
    List AuthField → List Secp.PK → Arr 32 → UInt8 → Outcome TxError (List Secp.PK × Arr 32 × UInt8)
  | [], pks, next, count => .ok (pks, next, count)
  | .pk k :: fs, pks, next, count => verifyFields typ fee nonce fs (pks ++ [k]) next count
  | .msg s :: fs, pks, next, count => do
    let (k, hash) ← (nextVerify next typ fee nonce s).mapErr Error.hash
    if count.toNat + 1 < 256 then verifyFields typ fee nonce fs (pks ++ [k]) hash (count + 1) else .panic

/-- auth.rs:445-482 `SpendingConditionMultiSig::verify`. -/
def MultiSig.verify (c : MultiSig) (hash : Arr 32) (typ : UInt8) : Outcome TxError (Arr 32) := do
  let (pks, next, count) ← verifyFields typ c.fee c.nonce c.fields [] hash 0
  if count < c.required then .err (.badSignatureCount c.required count)
  else do
    let signer ← (match c.mode with
      | .p2sh => hashP2sh c.required pks
      | .p2wsh => hashP2wsh c.required pks
      | _ => .panic : Outcome TxError (Arr 20))
    if signer ≠ c.signer then
      .err (.badSigner (Hex.bytesToHex c.signer.1) (Hex.bytesToHex signer.1))
    else pure next

/-! ## Dynamic dispatch (`dyn SpendingCondition`, auth.rs:38-60) -/

/-- `verify`. -/
def Spending.verify : Spending → Arr 32 → UInt8 → Outcome TxError (Arr 32)
  | .single c => c.verify
  | .multi c => c.verify

omit [Hashes]

/-- `encode`. -/
def Spending.encode : Spending → Outcome Clarity.Error Bytes
  | .single c => c.encode
  | .multi c => c.encode

/-- `modify`; the condition is unchanged when it fails. -/
def Spending.modify : Spending → Modification → Outcome TxError Spending
  | .single c, m => do pure (.single (← c.modify m))
  | .multi c, m => do pure (.multi (← c.modify m))

/-- `reset`. -/
def Spending.reset : Spending → Spending
  | .single c => .single c.reset
  | .multi c => .multi c.reset

/-- `signatures`. -/
def Spending.signatures {ε : Type} : Spending → Outcome ε UInt16
  | .single c => .ok c.signatures
  | .multi c => c.signatures

/-- `req_signatures`, auth.rs:321-323 and 514-516. -/
def Spending.reqSignatures : Spending → UInt16
  | .single _ => 1
  | .multi c => c.required.toUInt16

/-- `fee`, auth.rs:325-327 and 518-520. -/
def Spending.fee : Spending → UInt64
  | .single c => c.fee
  | .multi c => c.fee

/-- `nonce`, auth.rs:329-331 and 522-524. -/
def Spending.nonce : Spending → UInt64
  | .single c => c.nonce
  | .multi c => c.nonce

/-- `mode`, auth.rs:333-335 and 526-528. -/
def Spending.mode : Spending → Mode
  | .single c => c.mode
  | .multi c => c.mode

/-- `set_fee`, auth.rs:337-339 and 530-532. -/
def Spending.setFee : Spending → UInt64 → Spending
  | .single c, fee => .single { c with fee := fee }
  | .multi c, fee => .multi { c with fee := fee }

/-- `set_nonce`, auth.rs:341-343 and 534-536. -/
def Spending.setNonce : Spending → UInt64 → Spending
  | .single c, nonce => .single { c with nonce := nonce }
  | .multi c, nonce => .multi { c with nonce := nonce }

/-! ## `Auth` -/

/-- auth.rs:115-126 `Auth::reset`. -/
def Auth.reset : Auth → Auth
  | .standard origin => .standard origin.reset
  | .sponsored origin _ => .sponsored origin.reset (.single SingleSig.default)

/-- auth.rs:129-133 `Auth::origin`. -/
def Auth.origin : Auth → Spending
  | .standard o => o
  | .sponsored o _ => o

/-- auth.rs:136-140 `Auth::origin_mut`: replacing the origin. -/
def Auth.setOrigin : Auth → Spending → Auth
  | .standard _, o => .standard o
  | .sponsored _ s, o => .sponsored o s

/-- auth.rs:143-148 `Auth::sponsor` (151-156 `sponsor_mut` has the same outcome). -/
def Auth.sponsor : Auth → Outcome TxError Spending
  | .sponsored _ s => .ok s
  | .standard _ => .err .badSpendingConditionModification

/-- auth.rs:173-181 `Auth::set_sponsor`. -/
def Auth.setSponsor : Auth → Spending → Outcome TxError Auth
  | .standard _, _ => .err .badSpendingConditionModification
  | .sponsored o _, s => .ok (.sponsored o s)

/-- auth.rs:159-163 `Auth::set_fee`. -/
def Auth.setFee (a : Auth) (fee : UInt64) : Auth :=
  match a with
  | .standard o => .standard (o.setFee fee)
  | .sponsored o s => .sponsored (o.setFee fee) s

/-- auth.rs:166-170 `Auth::set_nonce`. -/
def Auth.setNonce (a : Auth) (nonce : UInt64) : Auth :=
  match a with
  | .standard o => .standard (o.setNonce nonce)
  | .sponsored o s => .sponsored (o.setNonce nonce) s

/-- auth.rs:184-191 `is_standard`, `is_sponsored`. -/
def Auth.isSponsored : Auth → Bool
  | .standard _ => false
  | .sponsored _ _ => true

/-- auth.rs:195-211 `Auth::encode`. -/
def Auth.encode : Auth → Outcome Clarity.Error Bytes
  | .standard o => do
    let e ← o.encode
    pure ([authTypeStandard] ++ e)
  | .sponsored o s => do
    let e ← o.encode
    let f ← s.encode
    pure ([authTypeSponsored] ++ e ++ f)

variable [Hashes]

/-- auth.rs:88-99 `Auth::verify`. -/
def Auth.verify : Auth → Arr 32 → Outcome TxError Unit
  | .standard _, _ => .ok ()
  | .sponsored o s, hash => do
    let next ← o.verify hash authTypeStandard
    let _ ← s.verify next authTypeSponsored
    pure ()

/-- auth.rs:102-111 `Auth::verify_origin`. -/
def Auth.verifyOrigin (a : Auth) (hash : Arr 32) : Outcome TxError (Arr 32) :=
  a.origin.verify hash authTypeStandard

end

end Stacks.Tx
