import Verif.Spec.InPlace
import Verif.Props.Verify

/-!
# C81: operations are all or nothing

A call that returns an error, or panics, leaves the signer, the transaction or the authorization it
was made on as it was.
-/

namespace Stacks.Tx
open Spec

section
variable {σ ε α β : Type}

theorem read_bind (f : σ → α) (g : α → Mut σ ε β) (s : σ) : (Mut.read f >>= g) s = g (f s) s := rfl
theorem call_bind (x : Outcome ε α) (g : α → Mut σ ε β) (s : σ) : (Mut.call x >>= g) s =
    match x with
    | .ok a => g a s
    | .err e => (.err e, s)
    | .panic => (.panic, s) := by cases x <;> rfl
theorem run_bind (m : Mut σ ε α) (g : α → Mut σ ε β) (s : σ) : (m >>= g) s =
    match m s with
    | (.ok a, s') => g a s'
    | (.err e, s') => (.err e, s')
    | (.panic, s') => (.panic, s') := rfl
theorem run_ite (b : Bool) (m m' : Mut σ ε α) (s : σ) :
    (if b = true then m else m') s = if b = true then m s else m' s := by cases b <;> rfl

end

section
variable [Secp]

theorem modifyMut_eq (c : Spending) (m : Modification) : Spending.modifyMut m c = allOrNothing c (c.modify m) := by
  cases c <;> cases m <;> rfl

/-- **C81** `modify` of a condition. -/
theorem C81_modify (c : Spending) (m : Modification) :
    Spending.modifyMut m c = allOrNothing c (c.modify m) ∧
    ((Spending.modifyMut m c).1 = .ok () → c.modify m = .ok (Spending.modifyMut m c).2) ∧
    ((Spending.modifyMut m c).1 ≠ .ok () → (Spending.modifyMut m c).2 = c) := by
  rw [modifyMut_eq]
  refine ⟨rfl, ?_⟩
  cases c.modify m <;> simp [allOrNothing]

/-- **C81** `set_sponsor` of an authorization. -/
theorem C81_set_sponsor (a : Auth) (c : Spending) :
    Auth.setSponsorMut c a = allOrNothing a (a.setSponsor c) ∧
    ((Auth.setSponsorMut c a).1 = .ok () → a.setSponsor c = .ok (Auth.setSponsorMut c a).2) ∧
    ((Auth.setSponsorMut c a).1 ≠ .ok () → (Auth.setSponsorMut c a).2 = a) := by
  cases a <;> simp [Auth.setSponsorMut, Auth.setSponsor, allOrNothing]

theorem appendNextOriginMut_eq (t : Transaction) (k : Secp.PK) :
    Transaction.appendNextOriginMut k t = allOrNothing t (t.appendNextOrigin k) := by
  obtain ⟨v, ci, a, am, pm, pcs, pl⟩ := t
  cases a with
  | standard o => cases o with
    | single c => obtain ⟨m, _, _, _, _⟩ := c; cases m <;> rfl
    | multi c => obtain ⟨m, _, _, _, _, _⟩ := c; cases m <;> rfl
  | sponsored o s => cases o with
    | single c => obtain ⟨m, _, _, _, _⟩ := c; cases m <;> rfl
    | multi c => obtain ⟨m, _, _, _, _, _⟩ := c; cases m <;> rfl

variable [Hashes]

/-- The result, and the value afterwards, when the operation also returns something. -/
theorem signAndAppendMut_eq (c : Spending) (h : Arr 32) (a : UInt8) (k : Secp.SK) :
    signAndAppendMut h a k c =
      match signAndAppend c h a k with
      | .ok (c', n) => (.ok n, c')
      | .err e => (.err e, c)
      | .panic => (.panic, c) := by
  unfold signAndAppendMut signAndAppend
  simp only [bind, pure, Mut.read, Mut.call]
  cases (nextSignature h a c.fee c.nonce k).mapErr Error.hash with
  | err e => rfl
  | panic => rfl
  | ok r =>
    cases c with
    | single c => obtain ⟨m, _, _, _, _⟩ := c; cases m <;> rfl
    | multi c => obtain ⟨m, _, _, _, _, _⟩ := c; cases m <;> rfl

theorem signNextOriginMut_eq (t : Transaction) (h : Arr 32) (k : Secp.SK) :
    Transaction.signNextOriginMut h k t =
      match t.signNextOrigin h k with
      | .ok (t', n) => (.ok n, t')
      | .err e => (.err e, t)
      | .panic => (.panic, t) := by
  obtain ⟨v, ci, a, am, pm, pcs, pl⟩ := t
  cases a <;>
  · simp only [Transaction.signNextOriginMut, Transaction.authMut, Mut.borrow, Auth.originMut,
      Transaction.signNextOrigin, Auth.origin, signAndAppendMut_eq]
    cases signAndAppend _ h authTypeStandard k <;> rfl

theorem signNextSponsorMut_eq (t : Transaction) (h : Arr 32) (k : Secp.SK) :
    Transaction.signNextSponsorMut h k t =
      match t.signNextSponsor h k with
      | .ok (t', n) => (.ok n, t')
      | .err e => (.err e, t)
      | .panic => (.panic, t) := by
  obtain ⟨v, ci, a, am, pm, pcs, pl⟩ := t
  cases a with
  | standard o => rfl
  | sponsored o s =>
    simp only [Transaction.signNextSponsorMut, Transaction.authMut, Mut.borrow, Auth.sponsorMut,
      Transaction.signNextSponsor, Auth.sponsor, signAndAppendMut_eq, Outcome.ok_bind]
    cases signAndAppend s h authTypeSponsored k <;> rfl

theorem signOriginMut_eq (s : Signer) (k : Secp.SK) : Signer.signOriginMut k s = allOrNothing s (s.signOrigin k) := by
  unfold Signer.signOriginMut Signer.signOrigin
  simp only [read_bind, call_bind, run_ite]
  generalize (if s.verifyOversign = true then _ else _ : Outcome TxError Bool) = over
  cases s.verifyOverlap && s.originSigned with
  | true => rfl
  | false =>
    cases over with
    | err e => rfl
    | panic => rfl
    | ok b =>
      cases b with
      | true => rfl
      | false =>
        simp only [Bool.false_eq_true, if_false, Outcome.ok_bind, run_bind, Signer.txMut, Mut.borrow,
          signNextOriginMut_eq]
        cases s.tx.signNextOrigin s.hash k <;> rfl

theorem signSponsorMut_eq (s : Signer) (k : Secp.SK) :
    Signer.signSponsorMut k s = allOrNothing s (s.signSponsor k) := by
  unfold Signer.signSponsorMut Signer.signSponsor
  simp only [read_bind, call_bind, run_ite]
  cases s.tx.auth.sponsor with
  | err e => rfl
  | panic => rfl
  | ok p =>
    simp only [Outcome.ok_bind]
    generalize (if s.verifyOversign = true then _ else _ : Outcome TxError Bool) = over
    cases over with
    | err e => rfl
    | panic => rfl
    | ok b =>
      cases b with
      | true => rfl
      | false =>
        simp only [Bool.false_eq_true, if_false, Outcome.ok_bind, run_bind, Signer.txMut, Mut.borrow,
          signNextSponsorMut_eq]
        cases s.tx.signNextSponsor s.hash k <;> rfl

omit [Hashes] in
theorem appendOriginMut_eq (s : Signer) (k : Secp.PK) :
    Signer.appendOriginMut k s = allOrNothing s (s.appendOrigin k) := by
  unfold Signer.appendOriginMut Signer.appendOrigin
  simp only [read_bind, run_ite, Signer.txMut, Mut.borrow, appendNextOriginMut_eq]
  cases s.verifyOverlap && s.originSigned with
  | true => rfl
  | false =>
    simp only [Bool.false_eq_true, if_false]
    cases s.tx.appendNextOrigin k <;> rfl

/-- **C81** A call on a signer that returns an error, or panics, leaves the signer as it was; one that
succeeds leaves the signer that the exact tables of C75 describe. -/
theorem C81_signer (op : SignerOp) (s : Signer) : op.run s = allOrNothing s (op.call s) := by
  cases op with
  | signOrigin k => exact signOriginMut_eq s k
  | signSponsor k => exact signSponsorMut_eq s k
  | appendOrigin k => exact appendOriginMut_eq s k

/-- **C81** The same, read off the result. -/
theorem C81_refused_unchanged (op : SignerOp) (s : Signer) (h : (op.run s).1 ≠ .ok ()) : (op.run s).2 = s := by
  rw [C81_signer] at h ⊢
  cases hc : op.call s with
  | ok s' => rw [hc] at h; exact absurd rfl h
  | err e => rfl
  | panic => rfl

/-- **C81** So a signer after any sequence of calls, whatever their results, is the one that the
successful calls alone produce: the calls that were refused can be left out. -/
theorem C81_history (ops : List SignerOp) (s : Signer) :
    (runAll ops s).2 = after s ops ∧
    (runAll ops s).2 = (runAll ((ops.zip (runAll ops s).1).filterMap fun x =>
      match x.2 with
      | .ok () => some x.1
      | _ => none) s).2 := by
  induction ops generalizing s with
  | nil => exact ⟨rfl, rfl⟩
  | cons op ops ih =>
    have hop := C81_signer op s
    cases hc : op.call s with
    | ok s' =>
      rw [hc] at hop
      refine ⟨?_, ?_⟩
      · simp only [runAll, after, hop, hc, allOrNothing]; exact (ih s').1
      · simp only [runAll, hop, allOrNothing, List.zip_cons_cons, List.filterMap_cons]
        exact (ih s').2
    | err e =>
      rw [hc] at hop
      refine ⟨?_, ?_⟩
      · simp only [runAll, after, hop, hc, allOrNothing]; exact (ih s).1
      · simp only [runAll, hop, allOrNothing, List.zip_cons_cons, List.filterMap_cons]
        exact (ih s).2
    | panic =>
      rw [hc] at hop
      refine ⟨?_, ?_⟩
      · simp only [runAll, after, hop, hc, allOrNothing]; exact (ih s).1
      · simp only [runAll, hop, allOrNothing, List.zip_cons_cons, List.filterMap_cons]
        exact (ih s).2

end

section
attribute [local instance] Concrete.realHashes Concrete.toySecp
local instance : DecidableEq Secp.Err := inferInstanceAs (DecidableEq Bool)

/-- A signer of a transfer from one key. -/
def exSigner : Signer := ⟨exTx, exHash, false, true, true⟩

-- C81: the first call signs, the others are refused
example : (runAll [.appendOrigin (exKey 2), .signOrigin (exKey 1), .signOrigin (exKey 2), .signSponsor (exKey 3)]
    exSigner).1 = [.err .badSpendingConditionModification, .ok (), .err .originOversign,
      .err .badSpendingConditionModification] := by decide +kernel
example : (runAll [.appendOrigin (exKey 2), .signOrigin (exKey 1), .signOrigin (exKey 2), .signSponsor (exKey 3)]
    exSigner).2.hash = (runAll [.signOrigin (exKey 1)] exSigner).2.hash ∧
    (runAll [.signOrigin (exKey 1)] exSigner).2.hash ≠ exSigner.hash := by decide +kernel

end

end Stacks.Tx
