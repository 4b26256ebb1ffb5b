import Verif.Model.Transaction

/-!
# The functions that take `&mut self`, in place

`Model/Auth` and `Model/Transaction` model them as functions from the old to the new value, which
says nothing of the value left behind when a call returns an error. Here each of them is written as
the sequence of its reads and writes.
-/

namespace Stacks

/-- Rust code with exclusive access to a `σ`. What has been written stays written when an error is
returned or a panic unwinds. -/
def Mut (σ ε α : Type) := σ → Outcome ε α × σ

namespace Mut
variable {σ τ ε α β : Type}

instance : Monad (Mut σ ε) where
  pure a := fun s => (.ok a, s)
  bind m f := fun s =>
    match m s with
    | (.ok a, s') => f a s'
    | (.err e, s') => (.err e, s')
    | (.panic, s') => (.panic, s')

/-- Reading. -/
def read (f : σ → α) : Mut σ ε α := fun s => (.ok (f s), s)
/-- An assignment. -/
def write (f : σ → σ) : Mut σ ε Unit := fun s => (.ok (), f s)
/-- `Err(e)`. -/
def throw (e : ε) : Mut σ ε α := fun s => (.err e, s)
/-- A call that does not write, and `?`. -/
def call (x : Outcome ε α) : Mut σ ε α := fun s => (x, s)
/-- Code running on a mutable borrow of a part. -/
def borrow (get : σ → τ) (put : τ → σ → σ) (m : Mut τ ε α) : Mut σ ε α := fun s =>
  let (r, t) := m (get s)
  (r, put t s)

end Mut

end Stacks

namespace Stacks.Tx

section
variable [Secp]

/-- auth.rs:300-309 `SpendingConditionStandard::modify`. -/
def SingleSig.modifyMut (m : Modification) : Mut SingleSig TxError Unit :=
  match m with
  | .setSignature sig => Mut.write fun c => { c with signature := sig }
  | _ => Mut.throw .badSpendingConditionModification

/-- auth.rs:484-496 `SpendingConditionMultiSig::modify`. -/
def MultiSig.modifyMut (m : Modification) : Mut MultiSig TxError Unit :=
  match m with
  | .addSignature sig => Mut.write fun c => { c with fields := c.fields ++ [.msg sig] }
  | .addPublicKey k => Mut.write fun c => { c with fields := c.fields ++ [.pk k] }
  | _ => Mut.throw .badSpendingConditionModification

/-- auth.rs:43 `SpendingCondition::modify`: dynamic dispatch. -/
def Spending.modifyMut (m : Modification) : Mut Spending TxError Unit
  | .single c => let (r, c') := SingleSig.modifyMut m c; (r, .single c')
  | .multi c => let (r, c') := MultiSig.modifyMut m c; (r, .multi c')

/-- auth.rs:136-140 `Auth::origin_mut`, and what is done with the borrow. -/
def Auth.originMut {α : Type} (m : Mut Spending TxError α) : Mut Auth TxError α
  | .standard o => let (r, o') := m o; (r, .standard o')
  | .sponsored o s => let (r, o') := m o; (r, .sponsored o' s)

/-- auth.rs:151-156 `Auth::sponsor_mut` with `?`, and what is done with the borrow. -/
def Auth.sponsorMut {α : Type} (m : Mut Spending TxError α) : Mut Auth TxError α
  | .standard o => (.err .badSpendingConditionModification, .standard o)
  | .sponsored o s => let (r, s') := m s; (r, .sponsored o s')

/-- auth.rs:173-181 `Auth::set_sponsor`. -/
def Auth.setSponsorMut (sponsor : Spending) : Mut Auth TxError Unit
  | .standard o => (.err .badSpendingConditionModification, .standard o)
  | .sponsored o _ => (.ok (), .sponsored o sponsor)

/-- A mutable borrow of the field `auth` of a transaction (base.rs:125, 134, 139). -/
def Transaction.authMut {α : Type} (m : Mut Auth TxError α) : Mut Transaction TxError α :=
  Mut.borrow Transaction.auth (fun a t => { t with auth := a }) m

/-- base.rs:138-145 `Transaction::append_next_origin`. -/
def Transaction.appendNextOriginMut (key : Secp.PK) : Mut Transaction TxError Unit :=
  Transaction.authMut <| Auth.originMut do
    let mode ← Mut.read Spending.mode
    match mode with
    | .p2sh | .p2wsh => Spending.modifyMut (.addPublicKey key)
    | .p2pkh | .p2wpkh => Mut.throw .badSpendingConditionModification

variable [Hashes]

/-- base.rs:148-167 `Transaction::sign_and_append`. -/
def signAndAppendMut (hash : Arr 32) (auth : UInt8) (key : Secp.SK) : Mut Spending TxError (Arr 32) := do
  let fee ← Mut.read Spending.fee
  let nonce ← Mut.read Spending.nonce
  let (sig, next) ← Mut.call ((nextSignature hash auth fee nonce key).mapErr Error.hash)
  let mode ← Mut.read Spending.mode
  match mode with
  | .p2pkh | .p2wpkh => Spending.modifyMut (.setSignature sig)
  | .p2sh | .p2wsh => Spending.modifyMut (.addSignature sig)
  pure next

/-- base.rs:120-126 `Transaction::sign_next_origin`. -/
def Transaction.signNextOriginMut (hash : Arr 32) (key : Secp.SK) : Mut Transaction TxError (Arr 32) :=
  Transaction.authMut (Auth.originMut (signAndAppendMut hash authTypeStandard key))

/-- base.rs:129-135 `Transaction::sign_next_sponsor`. -/
def Transaction.signNextSponsorMut (hash : Arr 32) (key : Secp.SK) : Mut Transaction TxError (Arr 32) :=
  Transaction.authMut (Auth.sponsorMut (signAndAppendMut hash authTypeSponsored key))

omit [Hashes] in
/-- A mutable borrow of the field `tx` of a signer (signer.rs:78, 91, 103). -/
def Signer.txMut {α : Type} (m : Mut Transaction TxError α) : Mut Signer TxError α :=
  Mut.borrow Signer.tx (fun t s => { s with tx := t }) m

/-- signer.rs:69-82 `TransactionSigner::sign_origin`. -/
def Signer.signOriginMut (key : Secp.SK) : Mut Signer TxError Unit := do
  let blocked ← Mut.read fun s => s.verifyOverlap && s.originSigned
  if blocked then Mut.throw .originPostSponsorSign
  else
    let origin ← Mut.read fun s => s.tx.auth.origin
    let check ← Mut.read Signer.verifyOversign
    let over ← Mut.call (if check then do
        let n ← origin.signatures
        pure (decide (origin.reqSignatures ≤ n))
      else pure false)
    if over then Mut.throw .originOversign
    else
      let hash ← Mut.read Signer.hash
      let next ← Signer.txMut (Transaction.signNextOriginMut hash key)
      Mut.write fun s => { s with hash := next }

/-- signer.rs:85-96 `TransactionSigner::sign_sponsor`. -/
def Signer.signSponsorMut (key : Secp.SK) : Mut Signer TxError Unit := do
  let found ← Mut.read fun s => s.tx.auth.sponsor
  let sponsor ← Mut.call found
  let check ← Mut.read Signer.verifyOversign
  let over ← Mut.call (if check then do
      let n ← sponsor.signatures
      pure (decide (sponsor.reqSignatures ≤ n))
    else pure false)
  if over then Mut.throw .sponsorOversign
  else
    let hash ← Mut.read Signer.hash
    let next ← Signer.txMut (Transaction.signNextSponsorMut hash key)
    Mut.write fun s => { s with originSigned := true }
    Mut.write fun s => { s with hash := next }

omit [Hashes] in
/-- signer.rs:99-105 `TransactionSigner::append_origin`. -/
def Signer.appendOriginMut (key : Secp.PK) : Mut Signer TxError Unit := do
  let blocked ← Mut.read fun s => s.verifyOverlap && s.originSigned
  if blocked then Mut.throw .originPostSponsorAppend
  else Signer.txMut (Transaction.appendNextOriginMut key)

end

end Stacks.Tx
