import Verif.Proofs.Signing

/-! # Lemmas about the signer -/

namespace Stacks.Tx
open Stacks.Spec

section
variable [Secp]

theorem countSignatures_ok {ε : Type} (fs : List AuthField) : ∀ cnt : UInt16,
    cnt.toNat + fs.countP isSignature < 65536 →
    (countSignatures fs cnt : Outcome ε UInt16) = .ok (UInt16.ofNat (cnt.toNat + fs.countP isSignature)) := by
  induction fs with
  | nil => intro cnt _; simp [countSignatures]
  | cons f fs ih =>
    intro cnt h
    cases f with
    | pk k =>
      have ec : (AuthField.pk k :: fs).countP isSignature = fs.countP isSignature := List.countP_cons_of_neg (fun h => Bool.noConfusion h)
      rw [ec] at h ⊢
      rw [countSignatures, ih _ h]
    | msg s =>
      have ec : (AuthField.msg s :: fs).countP isSignature = fs.countP isSignature + 1 := List.countP_cons_of_pos rfl
      rw [ec] at h ⊢
      have hlt : cnt.toNat + 1 < 65536 := by omega
      have e1 : (cnt + 1).toNat = cnt.toNat + 1 := by rw [UInt16.toNat_add]; exact Nat.mod_eq_of_lt hlt
      rw [countSignatures, if_pos hlt, ih _ (by omega), e1]
      congr 2; omega

theorem countSignatures_panic {ε : Type} (fs : List AuthField) : ∀ cnt : UInt16,
    65536 ≤ cnt.toNat + fs.countP isSignature → (countSignatures fs cnt : Outcome ε UInt16) = .panic := by
  induction fs with
  | nil => intro cnt h; have := cnt.toNat_lt; simp at h; omega
  | cons f fs ih =>
    intro cnt h
    cases f with
    | pk k =>
      have ec : (AuthField.pk k :: fs).countP isSignature = fs.countP isSignature := List.countP_cons_of_neg (fun h => Bool.noConfusion h)
      rw [ec] at h
      rw [countSignatures, ih _ h]
    | msg s =>
      have ec : (AuthField.msg s :: fs).countP isSignature = fs.countP isSignature + 1 := List.countP_cons_of_pos rfl
      rw [ec] at h
      rw [countSignatures]
      split
      · rename_i hlt
        apply ih
        have e1 : (cnt + 1).toNat = cnt.toNat + 1 := by rw [UInt16.toNat_add]; exact Nat.mod_eq_of_lt hlt
        omega
      · rfl

/-- `signatures()` counts the signatures, unless the `u16` overflows. -/
theorem signatures_ok {ε : Type} (c : Spending) (h : signatureCount c < 65536) :
    (c.signatures : Outcome ε UInt16) = .ok (UInt16.ofNat (signatureCount c)) := by
  cases c with
  | single c =>
    show Outcome.ok (if c.signature ≠ noSignature then 1 else 0) = _
    unfold signatureCount
    by_cases he : c.signature = noSignature
    · simp [he]
    · simp [he]
  | multi c =>
    show countSignatures c.fields 0 = _
    have h' : c.fields.countP isSignature < 65536 := h
    rw [countSignatures_ok _ _ (by simpa using h')]
    simp [signatureCount]

theorem signatures_panic {ε : Type} (c : Spending) (h : 65536 ≤ signatureCount c) :
    (c.signatures : Outcome ε UInt16) = .panic := by
  cases c with
  | single c =>
    have h' : 65536 ≤ (if c.signature = noSignature then 0 else 1) := h
    split at h' <;> omega
  | multi c =>
    have h' : 65536 ≤ c.fields.countP isSignature := h
    exact countSignatures_panic c.fields 0 (by simpa using h')

theorem reqSignatures_eq (c : Spending) : c.reqSignatures.toNat = requiredCount c := by
  cases c with
  | single c => rfl
  | multi c => exact UInt8.toNat_toUInt16 _

theorem requiredCount_lt (c : Spending) : requiredCount c < 256 := by
  cases c with
  | single c => show 1 < 256; decide
  | multi c => exact c.required.toNat_lt

/-- The check for too many signatures. -/
theorem overCheck_eq (flag : Bool) (c : Spending) :
    (if flag then do
        let n ← c.signatures
        pure (decide (c.reqSignatures ≤ n))
      else pure false : Outcome TxError Bool) =
      if flag = true ∧ 65536 ≤ signatureCount c then .panic
      else .ok (flag && decide (requiredCount c ≤ signatureCount c)) := by
  cases flag with
  | false => simp
  | true =>
    simp only [if_true, true_and, Bool.true_and]
    by_cases h : 65536 ≤ signatureCount c
    · rw [signatures_panic c h, if_pos h]; rfl
    · rw [signatures_ok c (by omega), if_neg h, Outcome.ok_bind, Outcome.pure_def]
      congr 1
      apply decide_eq_decide.2
      rw [UInt16.le_iff_toNat_le, reqSignatures_eq, UInt16.toNat_ofNat', Nat.mod_eq_of_lt (by omega)]

theorem signed_mode (c : Spending) (sig : Arr 65) : (withSignature c sig).mode = c.mode := by cases c <;> rfl
theorem signed_fee (c : Spending) (sig : Arr 65) : (withSignature c sig).fee = c.fee := by cases c <;> rfl
theorem signed_nonce (c : Spending) (sig : Arr 65) : (withSignature c sig).nonce = c.nonce := by cases c <;> rfl
theorem signed_signer (c : Spending) (sig : Arr 65) : signerOf (withSignature c sig) = signerOf c := by
  cases c <;> rfl
theorem signed_required (c : Spending) (sig : Arr 65) : requiredOf (withSignature c sig) = requiredOf c := by
  cases c <;> rfl
theorem signed_cleared (c : Spending) (sig : Arr 65) : clearedSpending (withSignature c sig) = clearedSpending c := by
  cases c <;> rfl
theorem keyed_cleared (c : Spending) (k : Secp.PK) : clearedSpending (withKey c k) = clearedSpending c := by
  cases c <;> rfl
theorem signed_fits (c : Spending) (sig : Arr 65) : ModeFits (withSignature c sig) ↔ ModeFits c := by
  cases c <;> exact Iff.rfl
theorem keyed_fits (c : Spending) (k : Secp.PK) : ModeFits (withKey c k) ↔ ModeFits c := by
  cases c <;> exact Iff.rfl
theorem signed_requiredCount (c : Spending) (sig : Arr 65) : requiredCount (withSignature c sig) = requiredCount c := by
  cases c <;> rfl
theorem keyed_requiredCount (c : Spending) (k : Secp.PK) : requiredCount (withKey c k) = requiredCount c := by
  cases c <;> rfl
theorem signed_count (c : Spending) (sig : Arr 65) (h : signatureCount c < requiredCount c) :
    signatureCount (withSignature c sig) ≤ signatureCount c + 1 ∧
      signatureCount (withSignature c sig) ≤ requiredCount c := by
  cases c with
  | single c =>
    simp only [signatureCount, withSignature, requiredCount]
    constructor <;> (split <;> omega)
  | multi c =>
    simp only [signatureCount, withSignature, requiredCount] at h ⊢
    rw [List.countP_append, List.countP_cons_of_pos (by rfl), List.countP_nil]
    omega
theorem keyed_count (c : Spending) (k : Secp.PK) : signatureCount (withKey c k) = signatureCount c := by
  cases c with
  | single c => rfl
  | multi c =>
    simp only [signatureCount, withKey]
    rw [List.countP_append, List.countP_cons_of_neg (fun h => Bool.noConfusion h), List.countP_nil]; rfl

theorem origin_setOrigin (a : Auth) (c : Spending) : (a.setOrigin c).origin = c := by cases a <;> rfl
theorem sponsor_setOrigin (a : Auth) (c : Spending) : (a.setOrigin c).sponsor = a.sponsor := by cases a <;> rfl
theorem setOrigin_setOrigin (a : Auth) (c d : Spending) : (a.setOrigin c).setOrigin d = a.setOrigin d := by
  cases a <;> rfl
theorem isSponsored_setOrigin (a : Auth) (c : Spending) : (a.setOrigin c).isSponsored = a.isSponsored := by
  cases a <;> rfl
theorem cleared_setOrigin (a : Auth) (c : Spending) (h : clearedSpending c = clearedSpending a.origin) :
    clearedAuth (a.setOrigin c) = clearedAuth a := by
  cases a with
  | standard o => show Auth.standard _ = Auth.standard _; rw [h]; rfl
  | sponsored o s => show Auth.sponsored _ _ = Auth.sponsored _ _; rw [h]; rfl

variable [Hashes]

/-- Adding a signature succeeds exactly when the mode fits the condition. -/
theorem signAndAppend_fits (c : Spending) (h : Arr 32) (typ : UInt8) (k : Secp.SK) (hf : ModeFits c) :
    signAndAppend c h typ k =
      .ok (withSignature c (signatureBytes (presignDigest h typ c.fee c.nonce) k),
        postsignDigest (presignDigest h typ c.fee c.nonce)
          (signatureBytes (presignDigest h typ c.fee c.nonce) k)) := by
  unfold signAndAppend
  rw [nextSignature_eq]
  simp only [Outcome.mapErr, Outcome.ok_bind]
  cases c with
  | single c =>
    obtain ⟨m, fee, nonce, signer, sig⟩ := c
    rcases hf with hm | hm <;> (cases hm; rfl)
  | multi c =>
    obtain ⟨m, fee, nonce, signer, fields, req⟩ := c
    rcases hf with hm | hm <;> (cases hm; rfl)

theorem signAndAppend_unfit (c : Spending) (h : Arr 32) (typ : UInt8) (k : Secp.SK) (hf : ¬ ModeFits c) :
    signAndAppend c h typ k = .err .badSpendingConditionModification := by
  unfold signAndAppend
  rw [nextSignature_eq]
  simp only [Outcome.mapErr, Outcome.ok_bind]
  cases c with
  | single c =>
    obtain ⟨m, fee, nonce, signer, sig⟩ := c
    cases m <;> first | exact absurd (.inl rfl) hf | exact absurd (.inr rfl) hf | rfl
  | multi c =>
    obtain ⟨m, fee, nonce, signer, fields, req⟩ := c
    cases m <;> first | exact absurd (.inl rfl) hf | exact absurd (.inr rfl) hf | rfl

/-- The signature a signer makes for the origin. -/
def Signer.originSig (s : Signer) (k : Secp.SK) : Arr 65 :=
  signatureBytes (presignDigest s.hash 4 s.tx.auth.origin.fee s.tx.auth.origin.nonce) k

/-- The signer after signing the origin. -/
def Signer.withOrigin (s : Signer) (k : Secp.SK) : Signer :=
  { s with
    tx := { s.tx with auth := s.tx.auth.setOrigin (withSignature s.tx.auth.origin (s.originSig k)) }
    hash := postsignDigest (presignDigest s.hash 4 s.tx.auth.origin.fee s.tx.auth.origin.nonce) (s.originSig k) }

omit [Hashes] in
instance (c : Spending) : Decidable (ModeFits c) :=
  match c with
  | .single c => inferInstanceAs (Decidable (c.mode = .p2pkh ∨ c.mode = .p2wpkh))
  | .multi c => inferInstanceAs (Decidable (c.mode = .p2sh ∨ c.mode = .p2wsh))

/-- Everything `sign_origin` does. -/
theorem signOrigin_eq (s : Signer) (k : Secp.SK) :
    s.signOrigin k =
      if s.verifyOverlap = true ∧ s.originSigned = true then .err .originPostSponsorSign
      else if s.verifyOversign = true ∧ 65536 ≤ signatureCount s.tx.auth.origin then .panic
      else if s.verifyOversign = true ∧ requiredCount s.tx.auth.origin ≤ signatureCount s.tx.auth.origin then
        .err .originOversign
      else if ModeFits s.tx.auth.origin then .ok (s.withOrigin k)
      else .err .badSpendingConditionModification := by
  unfold Signer.signOrigin
  simp only [Bool.and_eq_true]
  by_cases h1 : s.verifyOverlap = true ∧ s.originSigned = true
  · rw [if_pos h1, if_pos h1]
  rw [if_neg h1, if_neg h1]
  rw [overCheck_eq]
  by_cases h2 : s.verifyOversign = true ∧ 65536 ≤ signatureCount s.tx.auth.origin
  · rw [if_pos h2, if_pos h2]; rfl
  rw [if_neg h2, if_neg h2, Outcome.ok_bind]
  simp only [Bool.and_eq_true, decide_eq_true_eq]
  by_cases h3 : s.verifyOversign = true ∧ requiredCount s.tx.auth.origin ≤ signatureCount s.tx.auth.origin
  · rw [if_pos h3, if_pos h3]
  rw [if_neg h3, if_neg h3]
  unfold Transaction.signNextOrigin
  by_cases hf : ModeFits s.tx.auth.origin
  · rw [if_pos hf, signAndAppend_fits _ _ _ _ hf]; rfl
  · rw [if_neg hf, signAndAppend_unfit _ _ _ _ hf]; rfl

/-- Exactly when `sign_origin` succeeds. -/
theorem signOrigin_iff (s s' : Signer) (k : Secp.SK) :
    s.signOrigin k = .ok s' ↔
      ¬ (s.verifyOverlap = true ∧ s.originSigned = true) ∧
      (s.verifyOversign = true → signatureCount s.tx.auth.origin < requiredCount s.tx.auth.origin) ∧
      ModeFits s.tx.auth.origin ∧ s' = s.withOrigin k := by
  rw [signOrigin_eq]
  have hr := requiredCount_lt s.tx.auth.origin
  constructor
  · intro h
    split at h; · cases h
    split at h; · cases h
    split at h; · cases h
    split at h
    · rename_i h1 h2 h3 h4
      cases h
      exact ⟨h1, fun hv => by by_contra hc; exact h3 ⟨hv, by omega⟩, h4, rfl⟩
    · cases h
  · rintro ⟨h1, h2, h3, rfl⟩
    rw [if_neg h1, if_neg (fun h => by have := h2 h.1; omega), if_neg (fun h => by have := h2 h.1; omega),
      if_pos h3]

/-- The signature a signer makes for the sponsor. -/
def Signer.sponsorSig (s : Signer) (c : Spending) (k : Secp.SK) : Arr 65 :=
  signatureBytes (presignDigest s.hash 5 c.fee c.nonce) k

/-- The signer after signing the sponsor. -/
def Signer.withSponsor (s : Signer) (o c : Spending) (k : Secp.SK) : Signer :=
  { s with
    tx := { s.tx with auth := .sponsored o (withSignature c (s.sponsorSig c k)) }
    hash := postsignDigest (presignDigest s.hash 5 c.fee c.nonce) (s.sponsorSig c k)
    originSigned := true }

/-- Everything `sign_sponsor` does. -/
theorem signSponsor_eq (s : Signer) (k : Secp.SK) :
    s.signSponsor k =
      match s.tx.auth with
      | .standard _ => .err .badSpendingConditionModification
      | .sponsored o c =>
        if s.verifyOversign = true ∧ 65536 ≤ signatureCount c then .panic
        else if s.verifyOversign = true ∧ requiredCount c ≤ signatureCount c then .err .sponsorOversign
        else if ModeFits c then .ok (s.withSponsor o c k)
        else .err .badSpendingConditionModification := by
  obtain ⟨⟨v, ci, a, am, pm, pcs, pl⟩, h, os, vs, vl⟩ := s
  cases a with
  | standard o => rfl
  | sponsored o c =>
    unfold Signer.signSponsor
    show (Outcome.ok c >>= fun _ => _) = _
    rw [Outcome.ok_bind, overCheck_eq]
    simp only []
    by_cases h2 : vs = true ∧ 65536 ≤ signatureCount c
    · rw [if_pos h2, if_pos h2]; rfl
    rw [if_neg h2, if_neg h2, Outcome.ok_bind]
    simp only [Bool.and_eq_true, decide_eq_true_eq]
    by_cases h3 : vs = true ∧ requiredCount c ≤ signatureCount c
    · rw [if_pos h3, if_pos h3]
    rw [if_neg h3, if_neg h3]
    unfold Transaction.signNextSponsor
    show (((Outcome.ok c : Outcome TxError Spending) >>= fun _ => _) >>= fun _ => _) = _
    rw [Outcome.ok_bind]
    by_cases hf : ModeFits c
    · rw [if_pos hf, signAndAppend_fits _ _ _ _ hf]; rfl
    · rw [if_neg hf, signAndAppend_unfit _ _ _ _ hf]; rfl

/-- Exactly when `sign_sponsor` succeeds. -/
theorem signSponsor_iff (s s' : Signer) (k : Secp.SK) :
    s.signSponsor k = .ok s' ↔
      ∃ o c, s.tx.auth = .sponsored o c ∧
      (s.verifyOversign = true → signatureCount c < requiredCount c) ∧
      ModeFits c ∧ s' = s.withSponsor o c k := by
  rw [signSponsor_eq]
  cases ha : s.tx.auth with
  | standard o => simp
  | sponsored o c =>
    simp only []
    have hr := requiredCount_lt c
    constructor
    · intro h
      split at h; · cases h
      split at h; · cases h
      split at h
      · rename_i h2 h3 h4
        cases h
        exact ⟨o, c, rfl, fun hv => by by_contra hc; exact h3 ⟨hv, by omega⟩, h4, rfl⟩
      · cases h
    · rintro ⟨o', c', he, h2, h3, rfl⟩
      cases he
      rw [if_neg (fun h => by have := h2 h.1; omega), if_neg (fun h => by have := h2 h.1; omega), if_pos h3]

omit [Hashes] in
/-- The signer after appending a key. -/
def Signer.withOriginKey (s : Signer) (k : Secp.PK) : Signer :=
  { s with tx := { s.tx with auth := s.tx.auth.setOrigin (withKey s.tx.auth.origin k) } }

omit [Hashes] in
/-- Exactly when `append_origin` succeeds. -/
theorem appendOrigin_iff (s s' : Signer) (k : Secp.PK) :
    s.appendOrigin k = .ok s' ↔
      ¬ (s.verifyOverlap = true ∧ s.originSigned = true) ∧
      (∃ c, s.tx.auth.origin = .multi c) ∧ ModeFits s.tx.auth.origin ∧ s' = s.withOriginKey k := by
  unfold Signer.appendOrigin
  simp only [Bool.and_eq_true]
  by_cases h1 : s.verifyOverlap = true ∧ s.originSigned = true
  · rw [if_pos h1]; constructor
    · intro h; cases h
    · exact fun h => absurd h1 h.1
  rw [if_neg h1]
  obtain ⟨⟨v, ci, a, am, pm, pcs, pl⟩, h, os, vs, vl⟩ := s
  unfold Transaction.appendNextOrigin Signer.withOriginKey
  simp only [] at h1 ⊢
  generalize a.origin = o
  cases o with
  | single c =>
    obtain ⟨m, fee, nonce, signer, sig⟩ := c
    constructor
    · intro h; cases m <;> cases h
    · rintro ⟨_, ⟨c', hc⟩, _⟩; cases hc
  | multi c =>
    obtain ⟨m, fee, nonce, signer, fields, req⟩ := c
    constructor
    · intro h
      cases m with
      | p2sh => cases h; exact ⟨h1, ⟨_, rfl⟩, .inl rfl, rfl⟩
      | p2wsh => cases h; exact ⟨h1, ⟨_, rfl⟩, .inr rfl, rfl⟩
      | p2pkh => cases h
      | p2wpkh => cases h
    · rintro ⟨_, _, hm, rfl⟩
      rcases hm with hm | hm <;> (cases hm; rfl)

/-- Exactly when a signer can be made. -/
theorem signer_new_iff (t : Transaction) (s : Signer) :
    Signer.new t = .ok s ↔ EncodableBody t ∧ s = ⟨t, Hashes.sha512_256 (signingPreimage t), false, true, true⟩ := by
  unfold Signer.new
  rw [Outcome.bind_eq_ok]
  simp only [initialHash_iff, Outcome.pure_def, Outcome.ok.injEq]
  constructor
  · rintro ⟨x, ⟨h, rfl⟩, rfl⟩; exact ⟨h, rfl⟩
  · rintro ⟨h, rfl⟩; exact ⟨_, ⟨h, rfl⟩, rfl⟩

theorem verifyOrigin_iff (t : Transaction) (n : Arr 32) :
    t.verifyOrigin = .ok n ↔
      EncodableBody t ∧ t.auth.origin.verify (Hashes.sha512_256 (signingPreimage t)) 4 = .ok n := by
  unfold Transaction.verifyOrigin
  rw [Outcome.bind_eq_ok]
  simp only [initialHash_iff]
  constructor
  · rintro ⟨x, ⟨h, rfl⟩, hv⟩; exact ⟨h, hv⟩
  · rintro ⟨h, hv⟩; exact ⟨_, ⟨h, rfl⟩, hv⟩

theorem verifyOrigin_eq (t : Transaction) (h : EncodableBody t) :
    t.verifyOrigin = t.auth.origin.verify (Hashes.sha512_256 (signingPreimage t)) 4 := by
  unfold Transaction.verifyOrigin
  rw [(initialHash_iff t _).2 ⟨h, rfl⟩]; rfl

/-- Exactly when a signer for the sponsor can be made. -/
theorem newSponsor_iff (t : Transaction) (c : Spending) (s : Signer) :
    Signer.newSponsor t c = .ok s ↔
      ∃ o c' h, t.auth = .sponsored o c' ∧ Transaction.verifyOrigin { t with auth := .sponsored o c } = .ok h ∧
        s = ⟨{ t with auth := .sponsored o c }, h, true, true, true⟩ := by
  obtain ⟨v, ci, a, am, pm, pcs, pl⟩ := t
  cases a with
  | standard o =>
    constructor
    · intro h; cases h
    · rintro ⟨o', c', h, he, _⟩; cases he
  | sponsored o c' =>
    unfold Signer.newSponsor
    simp only [Auth.isSponsored, Bool.not_true, Bool.false_eq_true, if_false, Auth.setSponsor, Outcome.ok_bind]
    rw [Outcome.bind_eq_ok]
    constructor
    · rintro ⟨h, hv, h2⟩
      rw [Outcome.bind_eq_ok] at h2
      obtain ⟨s', hs', h3⟩ := h2
      rw [signer_new_iff] at hs'
      obtain ⟨_, rfl⟩ := hs'
      cases h3
      exact ⟨o, c', h, rfl, hv, rfl⟩
    · rintro ⟨o', c'', h, he, hv, rfl⟩
      cases he
      refine ⟨h, hv, ?_⟩
      rw [(signer_new_iff _ _).2 ⟨((verifyOrigin_iff _ _).1 hv).1, rfl⟩]; rfl

/-- Exactly when `sign` succeeds. -/
theorem sign_iff (t t' : Transaction) (k : Secp.SK) :
    t.sign k = .ok t' ↔
      EncodableBody t ∧ signatureCount t.auth.origin < requiredCount t.auth.origin ∧ ModeFits t.auth.origin ∧
      t' = { t with auth := t.auth.setOrigin (withSignature t.auth.origin (signatureBytes
        (presignDigest (Hashes.sha512_256 (signingPreimage t)) 4 t.auth.origin.fee t.auth.origin.nonce) k)) } := by
  unfold Transaction.sign
  simp only [Outcome.bind_eq_ok, signer_new_iff, signOrigin_iff, Outcome.pure_def, Outcome.ok.injEq]
  constructor
  · rintro ⟨_, ⟨h, rfl⟩, _, ⟨_, h2, h3, rfl⟩, rfl⟩
    exact ⟨h, h2 rfl, h3, rfl⟩
  · rintro ⟨h, h2, h3, rfl⟩
    exact ⟨_, ⟨h, rfl⟩, _, ⟨by simp, fun _ => h2, h3, rfl⟩, rfl⟩

end

end Stacks.Tx
