import Verif.Model.Auth
import Verif.Model.Condition
import Verif.Model.Network
import Verif.Model.Payload

/-! # `stacks/src/transaction/base.rs` and `stacks/src/transaction/signer.rs` -/

namespace Stacks.Tx
open Stacks.C32 (Mode)

/-- base.rs:29-39 `enum AnchorMode`. -/
inductive AnchorMode where
  | strict | micro | any
deriving DecidableEq, Repr

/-- base.rs:33-38: the discriminants. -/
def AnchorMode.toU8 : AnchorMode → UInt8
  | .strict => 0x01
  | .micro => 0x02
  | .any => 0x03

section
variable [Secp]

/-- base.rs:41-58 `struct Transaction`. -/
structure Transaction where
  version : TransactionVersion
  chainId : ChainID
  auth : Auth
  anchorMode : AnchorMode
  postConditionMode : PostConditionMode
  postConditions : List Condition
  payload : Payload

/-- base.rs:98-100 `Transaction::set_fee`. -/
def Transaction.setFee (t : Transaction) (fee : UInt64) : Transaction := { t with auth := t.auth.setFee fee }

/-- base.rs:103-105 `Transaction::set_nonce`. -/
def Transaction.setNonce (t : Transaction) (nonce : UInt64) : Transaction :=
  { t with auth := t.auth.setNonce nonce }

variable [Hashes]

/-- base.rs:171-183 `Transaction::encode`. -/
def Transaction.encode (t : Transaction) : Outcome Clarity.Error Bytes := do
  let auth ← t.auth.encode
  let conditions ← postConditionsEncode t.postConditions
  let payload ← t.payload.encode
  pure ([t.version.toU8] ++ beBytes 4 t.chainId.toU32.toNat ++ auth ++ [t.anchorMode.toU8] ++
    [t.postConditionMode.toU8] ++ conditions ++ payload)

/-- base.rs:185-191: the decoder is `unimplemented!()`. -/
def Transaction.decode (_ : Bytes) : Outcome Clarity.Error Transaction := .panic

/-- base.rs:92-95 `Transaction::hash`. -/
def Transaction.hash (t : Transaction) : Outcome TxError (Arr 32) := do
  let bytes ← t.encode.mapErr Error.clarity
  pure (signatureHash bytes)

/-- base.rs:113-117 `Transaction::initial_hash`. -/
def Transaction.initialHash (t : Transaction) : Outcome TxError (Arr 32) :=
  Transaction.hash { t with auth := t.auth.reset }

/-- base.rs:108-110 `Transaction::verify_origin`. -/
def Transaction.verifyOrigin (t : Transaction) : Outcome TxError (Arr 32) := do
  let h ← t.initialHash
  t.auth.verifyOrigin h

/-- base.rs:148-167 `Transaction::sign_and_append`: the changed condition and the next hash. -/
def signAndAppend (c : Spending) (hash : Arr 32) (auth : UInt8) (key : Secp.SK) :
    Outcome TxError (Spending × Arr 32) := do
  let (sig, next) ← (nextSignature hash auth c.fee c.nonce key).mapErr Error.hash
  let c' ← (match c.mode with
    | .p2pkh | .p2wpkh => c.modify (.setSignature sig)
    | .p2sh | .p2wsh => c.modify (.addSignature sig))
  pure (c', next)

/-- base.rs:120-126 `Transaction::sign_next_origin`. -/
def Transaction.signNextOrigin (t : Transaction) (hash : Arr 32) (key : Secp.SK) :
    Outcome TxError (Transaction × Arr 32) := do
  let (c, next) ← signAndAppend t.auth.origin hash authTypeStandard key
  pure ({ t with auth := t.auth.setOrigin c }, next)

/-- base.rs:129-135 `Transaction::sign_next_sponsor`. -/
def Transaction.signNextSponsor (t : Transaction) (hash : Arr 32) (key : Secp.SK) :
    Outcome TxError (Transaction × Arr 32) := do
  let s ← t.auth.sponsor
  let (c, next) ← signAndAppend s hash authTypeSponsored key
  let a ← t.auth.setSponsor c
  pure ({ t with auth := a }, next)

omit [Hashes] in
/-- base.rs:138-145 `Transaction::append_next_origin`. -/
def Transaction.appendNextOrigin (t : Transaction) (key : Secp.PK) : Outcome TxError Transaction :=
  match t.auth.origin.mode with
  | .p2sh | .p2wsh => do
    let c ← t.auth.origin.modify (.addPublicKey key)
    pure { t with auth := t.auth.setOrigin c }
  | .p2pkh | .p2wpkh => .err .badSpendingConditionModification

/-! ## signer.rs -/

/-- signer.rs:18-30 `struct TransactionSigner`. -/
structure Signer where
  tx : Transaction
  hash : Arr 32
  originSigned : Bool
  verifyOversign : Bool
  verifyOverlap : Bool

/-- signer.rs:34-44 `TransactionSigner::new`. -/
def Signer.new (tx : Transaction) : Outcome TxError Signer := do
  let hash ← tx.initialHash
  pure ⟨tx, hash, false, true, true⟩

/-- signer.rs:47-66 `TransactionSigner::new_sponser`. -/
def Signer.newSponsor (tx : Transaction) (sponsor : Spending) : Outcome TxError Signer :=
  if !tx.auth.isSponsored then .err .badSpendingConditionModification
  else do
    let auth ← tx.auth.setSponsor sponsor
    let tx := { tx with auth := auth }
    let hash ← tx.verifyOrigin
    let signer ← Signer.new tx
    pure { signer with hash := hash, originSigned := true, verifyOversign := true, verifyOverlap := true }

/-- signer.rs:69-82 `TransactionSigner::sign_origin`. -/
def Signer.signOrigin (s : Signer) (key : Secp.SK) : Outcome TxError Signer :=
  if s.verifyOverlap && s.originSigned then .err .originPostSponsorSign
  else do
    let origin := s.tx.auth.origin
    let over ← (if s.verifyOversign then do
        let n ← origin.signatures
        pure (decide (origin.reqSignatures ≤ n))
      else pure false : Outcome TxError Bool)
    if over then .err .originOversign
    else do
      let (tx, next) ← s.tx.signNextOrigin s.hash key
      pure { s with tx := tx, hash := next }

/-- signer.rs:85-96 `TransactionSigner::sign_sponsor`. -/
def Signer.signSponsor (s : Signer) (key : Secp.SK) : Outcome TxError Signer := do
  let sponsor ← s.tx.auth.sponsor
  let over ← (if s.verifyOversign then do
      let n ← sponsor.signatures
      pure (decide (sponsor.reqSignatures ≤ n))
    else pure false : Outcome TxError Bool)
  if over then .err .sponsorOversign
  else do
    let (tx, next) ← s.tx.signNextSponsor s.hash key
    pure { s with tx := tx, hash := next, originSigned := true }

omit [Hashes] in
/-- signer.rs:99-105 `TransactionSigner::append_origin`. -/
def Signer.appendOrigin (s : Signer) (key : Secp.PK) : Outcome TxError Signer :=
  if s.verifyOverlap && s.originSigned then .err .originPostSponsorAppend
  else do
    let tx ← s.tx.appendNextOrigin key
    pure { s with tx := tx }

/-- base.rs:85-89 `Transaction::sign`. -/
def Transaction.sign (t : Transaction) (key : Secp.SK) : Outcome TxError Transaction := do
  let signer ← Signer.new t
  let signer ← signer.signOrigin key
  pure signer.tx

end

end Stacks.Tx
