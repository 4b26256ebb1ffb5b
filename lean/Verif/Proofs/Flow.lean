import Verif.Proofs.TxLemmas

/-! # Lemmas about signing flows -/

namespace Stacks.Tx
open Stacks.Spec

section
variable [Secp] [Hashes]

/-! ## Chains -/

theorem recovers_append {typ : UInt8} {fee nonce : UInt64} {h h1 h2 : Arr 32} {fs gs : List AuthField}
    {ks ls : List Secp.PK} (a : Recovers typ fee nonce h fs ks h1) (b : Recovers typ fee nonce h1 gs ls h2) :
    Recovers typ fee nonce h (fs ++ gs) (ks ++ ls) h2 := by
  induction a with
  | nil => exact b
  | pk h h' k fs ks _ ih => exact .pk _ _ _ _ _ (ih b)
  | msg h h' s k fs ks hk _ ih => exact .msg _ _ _ _ _ _ hk (ih b)

theorem recovers_length {typ : UInt8} {fee nonce : UInt64} {h h1 : Arr 32} {fs : List AuthField}
    {ks : List Secp.PK} (a : Recovers typ fee nonce h fs ks h1) : ks.length = fs.length := by
  induction a with
  | nil => rfl
  | pk h h' k fs ks _ ih => simp [ih]
  | msg h h' s k fs ks hk _ ih => simp [ih]

/-- The first signature is checked against the first message. -/
theorem recovers_first {typ : UInt8} {fee nonce : UInt64} {h h1 : Arr 32} {fs : List AuthField}
    {ks : List Secp.PK} (a : Recovers typ fee nonce h fs ks h1) (hc : 0 < fs.countP isSignature) :
    ∃ sig k, fs.find? isSignature = some (.msg sig) ∧ RecoversKey (presignDigest h typ fee nonce) sig k ∧ k ∈ ks := by
  induction a with
  | nil => simp at hc
  | pk h h' k fs ks _ ih =>
    rw [List.countP_cons_of_neg (fun h => Bool.noConfusion h)] at hc
    obtain ⟨sig, k', h1, h2, h3⟩ := ih hc
    refine ⟨sig, k', ?_, h2, by simp [h3]⟩
    rw [List.find?_cons_of_neg (fun h => Bool.noConfusion h)]; exact h1
  | msg h h' s k fs ks hk _ ih =>
    exact ⟨s, k, List.find?_cons_of_pos rfl, hk, by simp⟩

/-- The loop of `verify` overflows at the 256th recoverable signature. -/
theorem verifyFields_panic {typ : UInt8} {fee nonce : UInt64} {h h1 : Arr 32} {fs : List AuthField}
    {ks : List Secp.PK} (a : Recovers typ fee nonce h fs ks h1) : ∀ (acc : List Secp.PK) (cnt : UInt8),
    256 ≤ cnt.toNat + fs.countP isSignature → verifyFields typ fee nonce fs acc h cnt = .panic := by
  induction a with
  | nil => intro acc cnt hc; have := cnt.toNat_lt; simp at hc; omega
  | pk h h' k fs ks _ ih =>
    intro acc cnt hc
    rw [verifyFields]
    exact ih _ _ (by rwa [List.countP_cons_of_neg (fun h => Bool.noConfusion h)] at hc)
  | msg h h' s k fs ks hk _ ih =>
    intro acc cnt hc
    rw [List.countP_cons_of_pos (by rfl)] at hc
    rw [verifyFields, (nextVerify_iff _ _ _ _ _ k _).2 ⟨hk, rfl⟩]
    simp only [Outcome.mapErr, Outcome.ok_bind]
    split
    · rename_i hlt
      apply ih
      rw [UInt8.toNat_add, show ((1 : UInt8).toNat) = 1 from rfl, Nat.mod_eq_of_lt hlt]; omega
    · rfl

/-! ## Walking -/

/-- The transaction with other fields in its origin. -/
def withFields (t : Transaction) (c : MultiSig) (fs : List AuthField) : Transaction :=
  { t with auth := t.auth.setOrigin (.multi { c with fields := fs }) }

omit [Hashes] in
theorem withFields_withFields (t : Transaction) (c d : MultiSig) (fs gs : List AuthField)
    (h : d = { c with fields := fs }) : withFields (withFields t c fs) d gs = withFields t c gs := by
  subst h
  unfold withFields
  simp only [setOrigin_setOrigin]

/-- Signing a multi-sig sponsor with each of the keys. -/
theorem signSponsors_ok [Secp.Lawful] (ks : List Secp.SK) : ∀ (s : Signer) (o : Spending) (c : MultiSig),
    s.tx.auth = .sponsored o (.multi c) → (c.mode = .p2sh ∨ c.mode = .p2wsh) →
    (s.verifyOversign = true → c.fields.countP isSignature + ks.length ≤ c.required.toNat) →
    ∃ s' gs, signSponsors s ks = .ok s' ∧
      s'.tx = { s.tx with auth := .sponsored o (.multi { c with fields := c.fields ++ gs }) } ∧
      Recovers 5 c.fee c.nonce s.hash gs (ks.map Secp.pub) s'.hash ∧
      gs.countP isSignature = ks.length := by
  induction ks with
  | nil =>
    intro s o c ho hf hc
    refine ⟨s, [], rfl, ?_, .nil _, rfl⟩
    obtain ⟨⟨v, ci, a, am, pm, pcs, pl⟩, h, os, vs, vl⟩ := s
    simp only [] at ho
    subst ho
    simp
  | cons k ks ih =>
    intro s o c ho hf hc
    have h1 := (signSponsor_iff s _ k).2 ⟨o, .multi c, ho, fun he => by
      have := hc he
      rw [List.length_cons] at this
      show c.fields.countP isSignature < c.required.toNat
      omega, hf, rfl⟩
    obtain ⟨s', gs, h2, h3, h4, h5⟩ := ih (s.withSponsor o (.multi c) k) o
      { c with fields := c.fields ++ [.msg (s.sponsorSig (.multi c) k)] } rfl hf (fun he => by
        have := hc he
        rw [List.length_cons] at this
        simp only []
        rw [List.countP_append, List.countP_cons_of_pos (by rfl), List.countP_nil]
        omega)
    refine ⟨s', .msg (s.sponsorSig (.multi c) k) :: gs, ?_, ?_, .msg _ _ _ _ _ _ ?_ h4, ?_⟩
    · rw [signSponsors, h1]; exact h2
    · rw [h3]
      simp [Signer.withSponsor]
    · exact recovers_signature _ _
    · rw [List.countP_cons_of_pos (by rfl), h5, List.length_cons]

theorem walk_ok [Secp.Lawful] (ps : List Participant) : ∀ (s : Signer) (c : MultiSig),
    s.tx.auth.origin = .multi c → (c.mode = .p2sh ∨ c.mode = .p2wsh) →
    ¬ (s.verifyOverlap = true ∧ s.originSigned = true) →
    (s.verifyOversign = true → c.fields.countP isSignature + ps.countP Participant.isSigner ≤ c.required.toNat) →
    ∃ s' gs, walk s ps = .ok s' ∧ s'.tx = withFields s.tx c (c.fields ++ gs) ∧
      Recovers 4 c.fee c.nonce s.hash gs (ps.map Participant.key) s'.hash ∧
      gs.map isSignature = ps.map Participant.isSigner ∧
      s'.originSigned = s.originSigned ∧ s'.verifyOversign = s.verifyOversign ∧
      s'.verifyOverlap = s.verifyOverlap := by
  induction ps with
  | nil =>
    intro s c ho hf hv hc
    refine ⟨s, [], rfl, ?_, .nil _, rfl, rfl, rfl, rfl⟩
    obtain ⟨⟨v, ci, a, am, pm, pcs, pl⟩, h, os, vs, vl⟩ := s
    simp only [] at ho
    cases a with
    | standard o => cases ho; simp [withFields, Auth.setOrigin]
    | sponsored o p => cases ho; simp [withFields, Auth.setOrigin]
  | cons p ps ih =>
    intro s c ho hf hv hc
    have hfit : ModeFits s.tx.auth.origin := by rw [ho]; exact hf
    cases p with
    | absent k =>
      have h1 := (appendOrigin_iff s _ k).2 ⟨hv, ⟨c, ho⟩, hfit, rfl⟩
      have ho' : (s.withOriginKey k).tx.auth.origin = .multi { c with fields := c.fields ++ [.pk k] } := by
        show (s.tx.auth.setOrigin _).origin = _
        rw [origin_setOrigin, ho]; rfl
      obtain ⟨s', gs, h2, h3, h4, h5, h6, h7, h8⟩ := ih (s.withOriginKey k) _ ho' hf hv (fun he => by
        have := hc he
        rw [List.countP_cons_of_neg (fun h => Bool.noConfusion h)] at this
        simp only []
        rw [List.countP_append, List.countP_cons_of_neg (fun h => Bool.noConfusion h)]
        simpa using this)
      refine ⟨s', .pk k :: gs, ?_, ?_, .pk _ _ _ _ _ h4, ?_, h6, h7, h8⟩
      · rw [walk, h1]; exact h2
      · rw [h3]
        have e : (s.withOriginKey k).tx = withFields s.tx c (c.fields ++ [.pk k]) := by
          unfold Signer.withOriginKey withFields
          simp only [ho]; rfl
        rw [e, withFields_withFields _ _ _ _ _ rfl]
        simp
      · simp only [List.map_cons, h5]; rfl
    | signs k =>
      have hc1 : s.verifyOversign = true → signatureCount s.tx.auth.origin < requiredCount s.tx.auth.origin := by
        intro he
        have := hc he
        rw [List.countP_cons_of_pos (by rfl)] at this
        rw [ho]
        show c.fields.countP isSignature < c.required.toNat
        omega
      have h1 := (signOrigin_iff s _ k).2 ⟨hv, hc1, hfit, rfl⟩
      have ho' : (s.withOrigin k).tx.auth.origin = .multi { c with fields := c.fields ++ [.msg (s.originSig k)] } := by
        show (s.tx.auth.setOrigin _).origin = _
        rw [origin_setOrigin, ho]; rfl
      obtain ⟨s', gs, h2, h3, h4, h5, h6, h7, h8⟩ := ih (s.withOrigin k) _ ho' hf hv (fun he => by
        have := hc he
        rw [List.countP_cons_of_pos (by rfl)] at this
        simp only []
        rw [List.countP_append, List.countP_cons_of_pos (by rfl), List.countP_nil]
        omega)
      have em : presignDigest s.hash 4 s.tx.auth.origin.fee s.tx.auth.origin.nonce =
          presignDigest s.hash 4 c.fee c.nonce := by rw [ho]; rfl
      refine ⟨s', .msg (s.originSig k) :: gs, ?_, ?_, .msg _ _ _ _ _ _ ?_ ?_, ?_, h6, h7, h8⟩
      · rw [walk, h1]; exact h2
      · rw [h3]
        have e : (s.withOrigin k).tx = withFields s.tx c (c.fields ++ [.msg (s.originSig k)]) := by
          unfold Signer.withOrigin withFields
          simp only [ho]; rfl
        rw [e, withFields_withFields _ _ _ _ _ rfl]
        simp
      · rw [← em]; exact recovers_signature _ _
      · rw [← em]; exact h4
      · simp only [List.map_cons, h5]; rfl

/-- With the checks on, one signature too many ends the walk. -/
theorem walk_oversign (ps : List Participant) : ∀ (s : Signer) (c : MultiSig),
    s.tx.auth.origin = .multi c → (c.mode = .p2sh ∨ c.mode = .p2wsh) →
    ¬ (s.verifyOverlap = true ∧ s.originSigned = true) → s.verifyOversign = true →
    c.fields.countP isSignature ≤ c.required.toNat →
    c.required.toNat < c.fields.countP isSignature + ps.countP Participant.isSigner →
    walk s ps = .err .originOversign := by
  induction ps with
  | nil => intro s c ho hf hv hs hle hlt; simp at hlt; omega
  | cons p ps ih =>
    intro s c ho hf hv hs hle hlt
    have hfit : ModeFits s.tx.auth.origin := by rw [ho]; exact hf
    cases p with
    | absent k =>
      have h1 := (appendOrigin_iff s _ k).2 ⟨hv, ⟨c, ho⟩, hfit, rfl⟩
      have ho' : (s.withOriginKey k).tx.auth.origin = .multi { c with fields := c.fields ++ [.pk k] } := by
        show (s.tx.auth.setOrigin _).origin = _
        rw [origin_setOrigin, ho]; rfl
      rw [walk, h1]
      refine ih (s.withOriginKey k) _ ho' hf hv hs ?_ ?_
      · simp only []
        rw [List.countP_append, List.countP_cons_of_neg (fun h => Bool.noConfusion h)]
        simpa using hle
      · rw [List.countP_cons_of_neg (fun h => Bool.noConfusion h)] at hlt
        simp only []
        rw [List.countP_append, List.countP_cons_of_neg (fun h => Bool.noConfusion h)]
        simpa using hlt
    | signs k =>
      by_cases hlt' : c.fields.countP isSignature < c.required.toNat
      · have h1 := (signOrigin_iff s _ k).2 ⟨hv, fun _ => by rw [ho]; exact hlt', hfit, rfl⟩
        have ho' : (s.withOrigin k).tx.auth.origin = .multi { c with fields := c.fields ++ [.msg (s.originSig k)] } := by
          show (s.tx.auth.setOrigin _).origin = _
          rw [origin_setOrigin, ho]; rfl
        rw [walk, h1]
        refine ih (s.withOrigin k) _ ho' hf hv hs ?_ ?_
        · simp only []
          rw [List.countP_append, List.countP_cons_of_pos (by rfl), List.countP_nil]
          omega
        · rw [List.countP_cons_of_pos (by rfl)] at hlt
          simp only []
          rw [List.countP_append, List.countP_cons_of_pos (by rfl), List.countP_nil]
          omega
      · have hq : signatureCount s.tx.auth.origin = c.fields.countP isSignature := by rw [ho]; rfl
        have hr : requiredCount s.tx.auth.origin = c.required.toNat := by rw [ho]; rfl
        have := c.required.toNat_lt
        rw [walk, signOrigin_eq, if_neg hv, if_neg (by omega), if_pos (by rw [hq, hr]; exact ⟨hs, by omega⟩)]
        rfl

/-! ## Operations -/

theorem call_flags (op : SignerOp) (s s' : Signer) (h : op.call s = .ok s') :
    s'.verifyOversign = s.verifyOversign ∧ s'.verifyOverlap = s.verifyOverlap ∧
      (s.originSigned = true → s'.originSigned = true) := by
  cases op with
  | signOrigin k => obtain ⟨_, _, _, rfl⟩ := (signOrigin_iff _ _ _).1 h; exact ⟨rfl, rfl, id⟩
  | signSponsor k => obtain ⟨_, _, _, _, _, rfl⟩ := (signSponsor_iff _ _ _).1 h; exact ⟨rfl, rfl, fun _ => rfl⟩
  | appendOrigin k => obtain ⟨_, _, _, rfl⟩ := (appendOrigin_iff _ _ _).1 h; exact ⟨rfl, rfl, id⟩

/-- What is kept by every call. -/
theorem after_induction (P : Signer → Prop) (hP : ∀ (op : SignerOp) (s s' : Signer), P s → op.call s = .ok s' → P s')
    (ops : List SignerOp) : ∀ s, P s → P (after s ops) := by
  induction ops with
  | nil => intro s h; exact h
  | cons op ops ih =>
    intro s h
    rw [after]
    split
    · rename_i s' hs; exact ih s' (hP op s s' h hs)
    · exact ih s h

theorem call_within (op : SignerOp) (s s' : Signer) (hv : s.verifyOversign = true)
    (hw : WithinRequired s.tx.auth) (h : op.call s = .ok s') : WithinRequired s'.tx.auth := by
  cases op with
  | signOrigin k =>
    obtain ⟨_, h2, _, rfl⟩ := (signOrigin_iff _ _ _).1 h
    refine ⟨?_, fun p hp => hw.2 p ?_⟩
    · show signatureCount (s.tx.auth.setOrigin _).origin ≤ requiredCount (s.tx.auth.setOrigin _).origin
      rw [origin_setOrigin, signed_requiredCount]
      exact (signed_count _ _ (h2 hv)).2
    · have : (s.tx.auth.setOrigin (withSignature s.tx.auth.origin (s.originSig k))).sponsor = .ok p := hp
      rwa [sponsor_setOrigin] at this
  | appendOrigin k =>
    obtain ⟨_, _, _, rfl⟩ := (appendOrigin_iff _ _ _).1 h
    refine ⟨?_, fun p hp => hw.2 p ?_⟩
    · show signatureCount (s.tx.auth.setOrigin _).origin ≤ requiredCount (s.tx.auth.setOrigin _).origin
      rw [origin_setOrigin, keyed_requiredCount, keyed_count]
      exact hw.1
    · have : (s.tx.auth.setOrigin (withKey s.tx.auth.origin k)).sponsor = .ok p := hp
      rwa [sponsor_setOrigin] at this
  | signSponsor k =>
    obtain ⟨o, c, ha, h2, _, rfl⟩ := (signSponsor_iff _ _ _).1 h
    refine ⟨?_, fun p hp => ?_⟩
    · have := hw.1
      rw [ha] at this
      exact this
    · cases hp
      rw [signed_requiredCount]
      exact (signed_count _ _ (h2 hv)).2

theorem call_no_panic (op : SignerOp) (s : Signer) (hw : WithinRequired s.tx.auth) : op.call s ≠ .panic := by
  cases op with
  | signOrigin k =>
    show s.signOrigin k ≠ _
    have := hw.1
    have := requiredCount_lt s.tx.auth.origin
    rw [signOrigin_eq]
    split; · simp
    rw [if_neg (by omega)]
    split; · simp
    split <;> simp
  | signSponsor k =>
    show s.signSponsor k ≠ _
    rw [signSponsor_eq]
    cases ha : s.tx.auth with
    | standard o => simp
    | sponsored o c =>
      have := hw.2 c (by rw [ha]; rfl)
      have := requiredCount_lt c
      simp only []
      rw [if_neg (by omega)]
      split; · simp
      split <;> simp
  | appendOrigin k =>
    show s.appendOrigin k ≠ _
    unfold Signer.appendOrigin
    split
    · simp
    · refine bind_ne_panic _ _ ?_ (fun a => by simp)
      unfold Transaction.appendNextOrigin
      generalize s.tx.auth.origin = o
      cases o with
      | single c =>
        obtain ⟨m, fee, nonce, signer, sig⟩ := c
        cases m <;> simp [Spending.mode, Spending.modify, SingleSig.modify]
      | multi c =>
        obtain ⟨m, fee, nonce, signer, fields, req⟩ := c
        cases m <;> simp [Spending.mode, Spending.modify, MultiSig.modify]

/-! ## Messages -/

omit [Hashes] [Secp] in
theorem presignInput_inj {h h' : Arr 32} {typ typ' : UInt8} {fee fee' nonce nonce' : UInt64}
    (he : presignInput h typ fee nonce = presignInput h' typ' fee' nonce') :
    h = h' ∧ typ = typ' ∧ fee = fee' ∧ nonce = nonce' := by
  unfold presignInput at he
  obtain ⟨h1, h2⟩ := List.append_inj he (by simp [h.2, h'.2])
  obtain ⟨h3, h4⟩ := List.append_inj h1 (by simp [h.2, h'.2])
  obtain ⟨h5, h6⟩ := List.append_inj h3 (by rw [h.2, h'.2])
  refine ⟨Subtype.ext h5, by simpa using h6, be64_inj h4, be64_inj h2⟩

end

end Stacks.Tx
