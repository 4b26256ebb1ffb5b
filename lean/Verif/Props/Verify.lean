import Verif.Proofs.Verify
import Verif.Props.Signing

/-! # Properties C74 and C75: the outcome of verification and of every signing step -/

namespace Stacks.Tx
open Stacks.Spec

section
variable [Secp] [Hashes]

/-! ## C74 -/

/-- **C74** The outcome of verifying one signature, in every case. -/
theorem C74_single_exact (c : SingleSig) (h : Arr 32) (typ : UInt8) (o : Outcome TxError (Arr 32)) :
    c.verify h typ = o ↔ SingleVerdict c h typ o := by
  refine ⟨?_, single_verdict⟩
  rintro rfl
  obtain ⟨o, ho⟩ := single_verdict_exists c h typ
  rw [single_verdict ho]; exact ho

/-- **C74** The outcome of verifying several signatures, in every case. -/
theorem C74_multi_exact (c : MultiSig) (h : Arr 32) (typ : UInt8) (o : Outcome TxError (Arr 32)) :
    c.verify h typ = o ↔ MultiVerdict c h typ o := by
  refine ⟨?_, multi_verdict⟩
  rintro rfl
  obtain ⟨o, ho⟩ := multi_verdict_exists c h typ
  rw [multi_verdict ho]; exact ho

/-- **C74** The outcome of `Transaction::verify_origin`, in every case. -/
theorem C74_origin_exact (t : Transaction) (o : Outcome TxError (Arr 32)) :
    t.verifyOrigin = o ↔ OriginVerdict t o := origin_verdict_iff t o

/-- **C74** The outcome of `Auth::verify`, in every case. -/
theorem C74_auth_exact (a : Auth) (h : Arr 32) (o : Outcome TxError Unit) :
    a.verify h = o ↔ AuthVerdict h a o := auth_verdict_iff a h o

/-! ## C75 -/

omit [Hashes] in
theorem origin_eq (a : Auth) : a.origin = originOf a := by cases a <;> rfl
omit [Hashes] in
theorem setOrigin_eq (a : Auth) (c : Spending) : a.setOrigin c = replaceOrigin a c := by cases a <;> rfl
omit [Hashes] in
theorem fee_eq (c : Spending) : c.fee = feeOf c := by cases c <;> rfl
omit [Hashes] in
theorem nonce_eq (c : Spending) : c.nonce = nonceOf c := by cases c <;> rfl

/-- **C75** Everything `sign_origin` does. (A panic needs 65536 signatures in one condition.) -/
theorem C75_sign_origin_exact (s : Signer) (k : Secp.SK) :
    s.signOrigin k =
      if s.verifyOverlap = true ∧ s.originSigned = true then .err .originPostSponsorSign
      else if s.verifyOversign = true ∧ 65536 ≤ signatureCount (originOf s.tx.auth) then .panic
      else if s.verifyOversign = true ∧ requiredCount (originOf s.tx.auth) ≤ signatureCount (originOf s.tx.auth) then
        .err .originOversign
      else if ModeFits (originOf s.tx.auth) then
        .ok { s with
          tx := { s.tx with auth := replaceOrigin s.tx.auth (signedBy s.hash 4 k (originOf s.tx.auth)) }
          hash := chainHash s.hash 4 k (originOf s.tx.auth) }
      else .err .badSpendingConditionModification := by
  rw [signOrigin_eq]
  unfold Signer.withOrigin Signer.originSig signedBy chainHash messageOf
  rw [origin_eq, setOrigin_eq, fee_eq, nonce_eq]

/-- **C75** Everything `sign_sponsor` does. -/
theorem C75_sign_sponsor_exact (s : Signer) (k : Secp.SK) :
    s.signSponsor k =
      match s.tx.auth with
      | .standard _ => .err .badSpendingConditionModification
      | .sponsored o c =>
        if s.verifyOversign = true ∧ 65536 ≤ signatureCount c then .panic
        else if s.verifyOversign = true ∧ requiredCount c ≤ signatureCount c then .err .sponsorOversign
        else if ModeFits c then
          .ok { s with
            tx := { s.tx with auth := .sponsored o (signedBy s.hash 5 k c) }
            hash := chainHash s.hash 5 k c
            originSigned := true }
        else .err .badSpendingConditionModification := by
  rw [signSponsor_eq]
  cases s.tx.auth with
  | standard o => rfl
  | sponsored o c =>
    simp only []
    unfold Signer.withSponsor Signer.sponsorSig signedBy chainHash messageOf
    rw [fee_eq, nonce_eq]

omit [Hashes] in
/-- **C75** Everything `append_origin` does: the key is added, the chain hash stays. -/
theorem C75_append_origin_exact (s : Signer) (p : Secp.PK) :
    s.appendOrigin p =
      if s.verifyOverlap = true ∧ s.originSigned = true then .err .originPostSponsorAppend
      else match originOf s.tx.auth with
        | .single _ => .err .badSpendingConditionModification
        | .multi c =>
          if c.mode = .p2sh ∨ c.mode = .p2wsh then
            .ok { s with
              tx := { s.tx with auth := replaceOrigin s.tx.auth (.multi { c with fields := c.fields ++ [.pk p] }) } }
          else .err .badSpendingConditionModification := by
  unfold Signer.appendOrigin Transaction.appendNextOrigin
  simp only [Bool.and_eq_true, origin_eq, setOrigin_eq]
  by_cases h : s.verifyOverlap = true ∧ s.originSigned = true
  · rw [if_pos h, if_pos h]
  rw [if_neg h, if_neg h]
  cases originOf s.tx.auth with
  | single c =>
    obtain ⟨m, fee, nonce, signer, sig⟩ := c
    cases m <;> rfl
  | multi c =>
    obtain ⟨m, fee, nonce, signer, fields, req⟩ := c
    cases m <;> rfl

/-- **C75** Everything `Transaction::sign` does. -/
theorem C75_sign_exact (t : Transaction) (k : Secp.SK) :
    (∀ e, BodyFails t e → t.sign k = .err (.clarity e)) ∧
    (EncodableBody t → t.sign k =
      if 65536 ≤ signatureCount (originOf t.auth) then .panic
      else if requiredCount (originOf t.auth) ≤ signatureCount (originOf t.auth) then .err .originOversign
      else if ModeFits (originOf t.auth) then
        .ok { t with
          auth := replaceOrigin t.auth (signedBy (Hashes.sha512_256 (signingPreimage t)) 4 k (originOf t.auth)) }
      else .err .badSpendingConditionModification) := by
  constructor
  · intro e he
    unfold Transaction.sign Signer.new
    rw [initialHash_fails he]; rfl
  · intro hb
    unfold Transaction.sign
    rw [(signer_new_iff t _).2 ⟨hb, rfl⟩, Outcome.ok_bind, C75_sign_origin_exact]
    simp only [Bool.false_eq_true, and_false, if_false, true_and]
    by_cases h1 : 65536 ≤ signatureCount (originOf t.auth)
    · rw [if_pos h1, if_pos h1]; rfl
    rw [if_neg h1, if_neg h1]
    by_cases h2 : requiredCount (originOf t.auth) ≤ signatureCount (originOf t.auth)
    · rw [if_pos h2, if_pos h2]; rfl
    rw [if_neg h2, if_neg h2]
    by_cases h3 : ModeFits (originOf t.auth)
    · rw [if_pos h3, if_pos h3]; rfl
    · rw [if_neg h3, if_neg h3]; rfl

/-- **C75** A new signer for the origin starts from the hash of what is signed, with both checks on. -/
theorem C75_new_signer_exact (t : Transaction) :
    (∀ e, BodyFails t e → Signer.new t = .err (.clarity e)) ∧
    (EncodableBody t → Signer.new t = .ok ⟨t, Hashes.sha512_256 (signingPreimage t), false, true, true⟩) := by
  refine ⟨fun e he => ?_, fun hb => (signer_new_iff t _).2 ⟨hb, rfl⟩⟩
  unfold Signer.new
  rw [initialHash_fails he]; rfl

/-- **C75** A new signer for the sponsor: the transaction must be sponsored; its sponsor is
replaced; the origin must verify, and the signer starts from the hash the origin leaves. -/
theorem C75_new_sponsor_exact (t : Transaction) (c : Spending) :
    (∀ o, t.auth = .standard o → Signer.newSponsor t c = .err .badSpendingConditionModification) ∧
    (∀ o p, t.auth = .sponsored o p →
      (∀ n, OriginVerdict { t with auth := .sponsored o c } (.ok n) →
        Signer.newSponsor t c = .ok ⟨{ t with auth := .sponsored o c }, n, true, true, true⟩) ∧
      (∀ e, OriginVerdict { t with auth := .sponsored o c } (.err e) → Signer.newSponsor t c = .err e) ∧
      (OriginVerdict { t with auth := .sponsored o c } .panic → Signer.newSponsor t c = .panic)) := by
  obtain ⟨v, ci, a, am, pm, pcs, pl⟩ := t
  constructor
  · rintro o rfl; rfl
  · rintro o p rfl
    refine ⟨fun n hn => ?_, fun e he => ?_, fun hp => ?_⟩
    · exact (newSponsor_iff _ _ _).2 ⟨o, p, n, rfl, (origin_verdict_iff _ _).2 hn, rfl⟩
    · unfold Signer.newSponsor
      simp only [Auth.isSponsored, Bool.not_true, Bool.false_eq_true, if_false, Auth.setSponsor, Outcome.ok_bind]
      rw [(origin_verdict_iff _ _).2 he]; rfl
    · unfold Signer.newSponsor
      simp only [Auth.isSponsored, Bool.not_true, Bool.false_eq_true, if_false, Auth.setSponsor, Outcome.ok_bind]
      rw [(origin_verdict_iff _ _).2 hp]; rfl

/-- **C75** The constructor of a single-signature condition: the hash of the key, no signature; a
mode for several keys panics. -/
theorem C75_single_new_exact {ε : Type} (p : Secp.PK) (fee nonce : UInt64) (mode : C32.Mode) :
    (SingleSig.new p fee nonce mode : Outcome ε SingleSig) =
      match keySigner mode p with
      | some s => .ok ⟨mode, fee, nonce, s, noSignature⟩
      | none => .panic := by
  cases hs : keySigner mode p with
  | some s => exact (single_new_iff p fee nonce mode _).2 ⟨rfl, rfl, rfl, hs, rfl⟩
  | none => cases mode with
    | p2pkh => cases hs
    | p2wpkh => cases hs
    | p2sh => rfl
    | p2wsh => rfl

/-- **C75** The constructor of a multi-signature condition: the hash of the script, no fields; a
mode for a single key, or numbers that do not fit the script, panic. -/
theorem C75_multi_new_exact {ε : Type} (ps : List Secp.PK) (fee nonce : UInt64) (m : UInt8) (mode : C32.Mode) :
    (MultiSig.new ps fee nonce m mode : Outcome ε MultiSig) =
      match scriptSigner mode m.toNat ps with
      | some s => if m.toNat ≤ 175 ∧ ps.length % 256 ≤ 175 then .ok ⟨mode, fee, nonce, s, [], m⟩ else .panic
      | none => .panic := by
  cases hs : scriptSigner mode m.toNat ps with
  | some s =>
    simp only []
    split
    · rename_i h; exact (multi_new_iff ps fee nonce m mode _).2 ⟨h, hs, rfl⟩
    · rename_i h
      show ((signerHash mode m ps : Outcome ε (Arr 20)) >>= fun s => .ok (⟨mode, fee, nonce, s, [], m⟩ : MultiSig)) = _
      rcases signerHash_cases (ε := ε) mode m ps with ⟨s', h'⟩ | h'
      · rw [signerHash_iff] at h'; exact absurd ⟨h'.1, h'.2.1⟩ h
      · rw [h']; rfl
  | none => cases mode with
    | p2pkh => rfl
    | p2wpkh => rfl
    | p2sh => cases hs
    | p2wsh => cases hs

end

/-! ## Every case occurs -/

section
attribute [local instance] Concrete.realHashes Concrete.toySecp
local instance : Secp.Lawful := Concrete.toyLawful
local instance : DecidableEq Secp.Err := inferInstanceAs (DecidableEq Bool)

/-- A chain hash. -/
def exHash : Arr 32 := ⟨List.replicate 32 9, by simp⟩

/-- `exSingle`, signed. -/
def exSigned (k : Arr 32) : SingleSig :=
  { exSingle with signature := signatureBytes (presignDigest exHash 4 180 5) k }

-- C74: valid, wrong key, no key, wrong mode
example : (exSigned (exKey 1)).verify exHash 4 =
    .ok (postsignDigest (presignDigest exHash 4 180 5) (exSigned (exKey 1)).signature) := by decide +kernel
example : ∃ a b, (exSigned (exKey 2)).verify exHash 4 = .err (.badSigner a b) ∧ a ≠ b :=
  ⟨_, _, (C74_single_exact _ _ _ _).2 (.wrongKey (recovers_signature _ (exKey 2)) rfl (by decide +kernel)),
    by decide +kernel⟩
example : exSingle.verify exHash 4 = .err (.hash (.secp256k1 true)) := by decide +kernel
example : ({ exSingle with signature := ⟨List.replicate 65 4, by simp⟩ } : SingleSig).verify exHash 4 =
    .err (.hash (.secp256k1 Secp.invalidRecId)) := by decide +kernel
example : ({ exSigned (exKey 1) with mode := .p2sh } : SingleSig).verify exHash 4 = .panic := by decide +kernel
-- C74: another type byte, fee or nonce gives no key
example : (exSigned (exKey 1)).verify exHash 5 = .err (.hash (.secp256k1 true)) := by decide +kernel
example : ({ exSigned (exKey 1) with fee := 181 } : SingleSig).verify exHash 4 = .err (.hash (.secp256k1 true)) := by
  decide +kernel

/-- Two of three, signed by the first and the third. -/
def exFields : List AuthField :=
  let m1 := presignDigest exHash 4 180 5
  let s1 := signatureBytes m1 (exKey 1)
  [.msg s1, .pk (exKey 2), .msg (signatureBytes (presignDigest (postsignDigest m1 s1) 4 180 5) (exKey 3))]

example : ∃ n, ({ exTwoOfThree with fields := exFields } : MultiSig).verify exHash 4 = .ok n :=
  ⟨_, (C74_multi_exact _ _ _ _).2 (.valid (ks := [exKey 1, exKey 2, exKey 3])
    (.msg _ _ _ _ _ _ (recovers_signature _ (exKey 1)) (.pk _ _ _ _ _ (.msg _ _ _ _ _ _
      (recovers_signature _ (exKey 3)) (.nil _)))) (by decide) (by decide) (by decide) (by decide) rfl)⟩
-- one signature is missing; the fields are in another order; the mode is wrong
example : ({ exTwoOfThree with fields := exFields.take 2 } : MultiSig).verify exHash 4 =
    .err (.badSignatureCount 2 1) := by decide +kernel
example : ({ exTwoOfThree with fields := exFields.reverse } : MultiSig).verify exHash 4 =
    .err (.hash (.secp256k1 true)) := by decide +kernel
example : ({ exTwoOfThree with fields := exFields, mode := .p2pkh } : MultiSig).verify exHash 4 = .panic := by
  decide +kernel
example : ∃ a b, ({ exTwoOfThree with fields := exFields, required := 1 } : MultiSig).verify exHash 4 =
    .err (.badSigner a b) :=
  ⟨_, _, (C74_multi_exact _ _ _ _).2 (.wrongKeys (ks := [exKey 1, exKey 2, exKey 3])
    (.msg _ _ _ _ _ _ (recovers_signature _ (exKey 1)) (.pk _ _ _ _ _ (.msg _ _ _ _ _ _
      (recovers_signature _ (exKey 3)) (.nil _)))) (by decide) (by decide) (by decide) (by decide) rfl
      (by decide +kernel))⟩

-- C75: the cases of a signing step
example : ∃ s, (⟨exTx, exHash, false, true, true⟩ : Signer).signOrigin (exKey 1) = .ok s ∧
    s.tx.auth = .standard (.single (exSigned (exKey 1))) ∧ s.hash ≠ exHash :=
  ⟨_, (C75_sign_origin_exact _ _).trans (by
    rw [if_neg (by decide), if_neg (by decide), if_neg (by decide), if_pos (by exact .inl rfl)]), rfl,
    by decide +kernel⟩
example : (⟨exTx, exHash, true, true, true⟩ : Signer).signOrigin (exKey 1) = .err .originPostSponsorSign := rfl
example : (⟨{ exTx with auth := .standard (.single (exSigned (exKey 1))) }, exHash, false, true, true⟩ : Signer).signOrigin
    (exKey 1) = .err .originOversign :=
  (C75_sign_origin_exact _ _).trans (by
    rw [if_neg (by decide), if_neg (by decide +kernel), if_pos (by decide +kernel)])
example : (⟨{ exTx with auth := .standard (.single { exSingle with mode := .p2sh }) }, exHash, false, true, true⟩ :
    Signer).signOrigin (exKey 1) = .err .badSpendingConditionModification :=
  (C75_sign_origin_exact _ _).trans (by
    rw [if_neg (by decide), if_neg (by decide), if_neg (by decide), if_neg (by intro h; rcases h with h | h <;> cases h)])
example : (⟨exTx, exHash, false, true, true⟩ : Signer).signSponsor (exKey 1) =
    .err .badSpendingConditionModification := rfl
example : (⟨exTx, exHash, false, true, true⟩ : Signer).appendOrigin (exKey 1) =
    .err .badSpendingConditionModification := rfl

end

end Stacks.Tx
