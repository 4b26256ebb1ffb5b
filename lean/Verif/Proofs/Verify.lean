import Verif.Spec.Verify
import Verif.Proofs.Signer
import Verif.Proofs.TransactionErrors

/-! # Proofs for C74: the verdict of verification -/

namespace Stacks.Tx
open Stacks.Spec

section
variable [Secp]

theorem intoRecov_cases (m : Arr 32) (s : Arr 65) :
    (∃ x, RecoverFails m s x ∧
      ((messageSigIntoRecov s >>= fun r => ofExcept (ε' := HashError Secp.Err) .secp256k1 (Secp.recover m r)) =
        .err (.secp256k1 x))) ∨ ∃ k, RecoversKey m s k := by
  obtain ⟨s, hs⟩ := s
  match s, hs with
  | b :: rest, hs =>
    unfold messageSigIntoRecov
    simp only []
    rw [Clarity.idx_zero_cons, Outcome.ok_bind]
    by_cases hb : b.toNat < 4
    · have e : UInt8.ofNat ((⟨b.toNat, hb⟩ : Fin 4) : Nat) = b := by simp
      rw [dif_pos hb, Outcome.ok_bind, Clarity.sliceFrom_one, Outcome.ok_bind]
      cases hf : Secp.fromCompact rest ⟨b.toNat, hb⟩ with
      | error x => exact .inl ⟨x, .bytes (by rw [e]) hf, rfl⟩
      | ok r =>
        cases hr : Secp.recover m r with
        | error x =>
          refine .inl ⟨x, .key (by rw [e]) hf hr, ?_⟩
          show ofExcept _ (Secp.recover m r) = _
          rw [hr]; rfl
        | ok k => exact .inr ⟨k, ⟨b.toNat, hb⟩, rest, r, by rw [e], hf, hr⟩
    · rw [dif_neg hb]
      exact .inl ⟨_, .id rfl (by omega), rfl⟩

theorem recoverFails_not {m : Arr 32} {s : Arr 65} {x : Secp.Err} {k : Secp.PK} (h : RecoverFails m s x)
    (hk : RecoversKey m s k) : False := by
  obtain ⟨id, rest, r, h1, h2, h3⟩ := hk
  have idEq : ∀ {a b : Fin 4}, UInt8.ofNat a = UInt8.ofNat b → a = b := by
    intro a b e
    have := congrArg UInt8.toNat e
    rw [UInt8.toNat_ofNat', UInt8.toNat_ofNat', Nat.mod_eq_of_lt (by omega), Nat.mod_eq_of_lt (by omega)] at this
    exact Fin.ext this
  cases h with
  | id hs hb =>
    rw [h1] at hs
    obtain ⟨rfl, _⟩ := List.cons.inj hs
    rw [UInt8.toNat_ofNat', Nat.mod_eq_of_lt (by omega)] at hb
    omega
  | bytes hs hf =>
    rw [h1] at hs
    obtain ⟨e, rfl⟩ := List.cons.inj hs
    rw [← idEq e, h2] at hf; cases hf
  | key hs hf hr =>
    rw [h1] at hs
    obtain ⟨e, rfl⟩ := List.cons.inj hs
    rw [← idEq e, h2] at hf
    cases hf
    rw [h3] at hr; cases hr

theorem recoverFails_unique {m : Arr 32} {s : Arr 65} {x y : Secp.Err} (h : RecoverFails m s x)
    (h' : RecoverFails m s y) : x = y := by
  have key : ∀ z, RecoverFails m s z →
      (messageSigIntoRecov s >>= fun r => ofExcept (ε' := HashError Secp.Err) .secp256k1 (Secp.recover m r)) =
        .err (.secp256k1 z) := by
    intro z hz
    obtain ⟨s, hs⟩ := s
    match s, hs with
    | b :: rest, hs =>
      unfold messageSigIntoRecov
      simp only []
      rw [Clarity.idx_zero_cons, Outcome.ok_bind]
      have idEq : ∀ (id : Fin 4) (hb : (UInt8.ofNat id).toNat < 4), (⟨(UInt8.ofNat id).toNat, hb⟩ : Fin 4) = id := by
        intro id hb
        apply Fin.ext
        show (UInt8.ofNat id).toNat = id
        rw [UInt8.toNat_ofNat', Nat.mod_eq_of_lt (by omega)]
      have idLt : ∀ (id : Fin 4), (UInt8.ofNat id).toNat < 4 := by
        intro id; rw [UInt8.toNat_ofNat', Nat.mod_eq_of_lt (by omega)]; exact id.2
      cases hz with
      | id hs hb =>
        obtain ⟨rfl, _⟩ := List.cons.inj hs
        rw [dif_neg (by omega)]; rfl
      | bytes hs hf =>
        obtain ⟨rfl, rfl⟩ := List.cons.inj hs
        rw [dif_pos (idLt _), Outcome.ok_bind, Clarity.sliceFrom_one, Outcome.ok_bind, idEq, hf]; rfl
      | key hs hf hr =>
        obtain ⟨rfl, rfl⟩ := List.cons.inj hs
        rw [dif_pos (idLt _), Outcome.ok_bind, Clarity.sliceFrom_one, Outcome.ok_bind, idEq, hf]
        show ofExcept _ (Secp.recover m _) = _
        rw [hr]; rfl
  have := (key x h).symm.trans (key y h')
  cases this; rfl

variable [Hashes]

theorem nextVerify_cases (h : Arr 32) (typ : UInt8) (fee nonce : UInt64) (s : Arr 65) :
    (∃ x, RecoverFails (presignDigest h typ fee nonce) s x ∧
      nextVerify h typ fee nonce s = .err (.secp256k1 x)) ∨
    ∃ k, RecoversKey (presignDigest h typ fee nonce) s k ∧
      nextVerify h typ fee nonce s = .ok (k, postsignDigest (presignDigest h typ fee nonce) s) := by
  rcases intoRecov_cases (presignDigest h typ fee nonce) s with ⟨x, hx, he⟩ | ⟨k, hk⟩
  · refine .inl ⟨x, hx, ?_⟩
    unfold nextVerify
    rw [presign_eq]
    simp only []
    cases hr : messageSigIntoRecov s with
    | ok r =>
      rw [hr, Outcome.ok_bind] at he
      rw [Outcome.ok_bind, he]; rfl
    | err e => rw [hr] at he; cases he; rfl
    | panic => exact absurd hr (intoRecov_not_panic s)
  · exact .inr ⟨k, hk, (nextVerify_iff _ _ _ _ _ _ _).2 ⟨hk, rfl⟩⟩

theorem nextVerify_fails {h : Arr 32} {typ : UInt8} {fee nonce : UInt64} {s : Arr 65} {x : Secp.Err}
    (hx : RecoverFails (presignDigest h typ fee nonce) s x) :
    nextVerify h typ fee nonce s = .err (.secp256k1 x) := by
  rcases nextVerify_cases h typ fee nonce s with ⟨y, hy, he⟩ | ⟨k, hk, _⟩
  · rw [he, recoverFails_unique hx hy]
  · exact (recoverFails_not hx hk).elim

/-! ## Single signatures -/

theorem single_verdict {c : SingleSig} {h : Arr 32} {typ : UInt8} {o : Outcome TxError (Arr 32)}
    (hv : SingleVerdict c h typ o) : c.verify h typ = o := by
  cases hv with
  | noKey hx => unfold SingleSig.verify; rw [nextVerify_fails hx]; rfl
  | wrongMode hk hm =>
    unfold SingleSig.verify
    rw [(nextVerify_iff _ _ _ _ _ _ _).2 ⟨hk, rfl⟩]
    simp only [Outcome.mapErr, Outcome.ok_bind]
    cases hc : c.mode with
    | p2pkh => rw [hc] at hm; cases hm
    | p2wpkh => rw [hc] at hm; cases hm
    | p2sh => rfl
    | p2wsh => rfl
  | wrongKey hk hm hne => rw [single_verify_recovered c h typ _ _ hk hm, if_neg hne, Hex.bytesToHex_eq, Hex.bytesToHex_eq]
  | valid hk hm => rw [single_verify_recovered c h typ _ _ hk hm, if_pos rfl]

theorem single_verdict_exists (c : SingleSig) (h : Arr 32) (typ : UInt8) : ∃ o, SingleVerdict c h typ o := by
  rcases nextVerify_cases h typ c.fee c.nonce c.signature with ⟨x, hx, _⟩ | ⟨k, hk, _⟩
  · exact ⟨_, .noKey hx⟩
  · cases hs : keySigner c.mode k with
    | none => exact ⟨_, .wrongMode hk hs⟩
    | some s =>
      by_cases he : s = c.signer
      · subst he; exact ⟨_, .valid hk hs⟩
      · exact ⟨_, .wrongKey hk hs he⟩

/-! ## Several signatures -/

theorem verifyFields_append (typ : UInt8) (fee nonce : UInt64) (fs gs : List AuthField) :
    ∀ (acc : List Secp.PK) (h : Arr 32) (cnt : UInt8),
      verifyFields typ fee nonce (fs ++ gs) acc h cnt =
        (verifyFields typ fee nonce fs acc h cnt >>= fun r => verifyFields typ fee nonce gs r.1 r.2.1 r.2.2) := by
  induction fs with
  | nil => intro acc h cnt; rfl
  | cons f fs ih =>
    intro acc h cnt
    cases f with
    | pk k => rw [List.cons_append, verifyFields, verifyFields, ih]
    | msg s =>
      rw [List.cons_append, verifyFields, verifyFields]
      cases hv : nextVerify h typ fee nonce s with
      | ok r =>
        obtain ⟨k, n⟩ := r
        simp only [Outcome.mapErr, Outcome.ok_bind]
        split
        · rw [ih]
        · rfl
      | err e => rfl
      | panic => rfl

/-- The ways the loop can end. -/
theorem fields_cases (typ : UInt8) (fee nonce : UInt64) (fs : List AuthField) (h : Arr 32) :
    (∃ ks n, Recovers typ fee nonce h fs ks n ∧ fs.countP isSignature < 256) ∨
    (∃ pre s post ks n x, fs = pre ++ .msg s :: post ∧ pre.countP isSignature < 256 ∧
      Recovers typ fee nonce h pre ks n ∧ RecoverFails (presignDigest n typ fee nonce) s x) ∨
    (∃ pre s post ks n, fs = pre ++ .msg s :: post ∧ pre.countP isSignature = 255 ∧
      Recovers typ fee nonce h (pre ++ [.msg s]) ks n) := by
  have snoc : ∀ {h pre ks n}, Recovers typ fee nonce h pre ks n → ∀ {s k},
      RecoversKey (presignDigest n typ fee nonce) s k →
      Recovers typ fee nonce h (pre ++ [.msg s]) (ks ++ [k]) (postsignDigest (presignDigest n typ fee nonce) s) := by
    intro h pre ks n hr s k hk
    induction hr with
    | nil h => exact .msg _ _ _ _ _ _ hk (.nil _)
    | pk h h' k' fs ks _ ih => exact .pk _ _ _ _ _ (ih hk)
    | msg h h' s' k' fs ks hk' _ ih => exact .msg _ _ _ _ _ _ hk' (ih hk)
  have snocPk : ∀ {h pre ks n}, Recovers typ fee nonce h pre ks n → ∀ k,
      Recovers typ fee nonce h (pre ++ [.pk k]) (ks ++ [k]) n := by
    intro h pre ks n hr k
    induction hr with
    | nil h => exact .pk _ _ _ _ _ (.nil _)
    | pk h h' k' fs ks _ ih => exact .pk _ _ _ _ _ ih
    | msg h h' s' k' fs ks hk' _ ih => exact .msg _ _ _ _ _ _ hk' ih
  induction fs using List.reverseRecOn with
  | nil => exact .inl ⟨[], h, .nil h, by simp⟩
  | append_singleton fs f ih =>
    rcases ih with ⟨ks, n, hr, hc⟩ | ⟨pre, s, post, ks, n, x, rfl, h1, h2, h3⟩ | ⟨pre, s, post, ks, n, rfl, h1, h2⟩
    · cases f with
      | pk k =>
        exact .inl ⟨_, _, snocPk hr k, by
          rw [List.countP_append, List.countP_cons_of_neg (fun h => Bool.noConfusion h), List.countP_nil]; exact hc⟩
      | msg s =>
        rcases nextVerify_cases n typ fee nonce s with ⟨x, hx, _⟩ | ⟨k, hk, _⟩
        · exact .inr (.inl ⟨fs, s, [], ks, n, x, rfl, hc, hr, hx⟩)
        · by_cases h255 : fs.countP isSignature = 255
          · exact .inr (.inr ⟨fs, s, [], _, _, rfl, h255, snoc hr hk⟩)
          · refine .inl ⟨_, _, snoc hr hk, ?_⟩
            rw [List.countP_append, List.countP_cons_of_pos (by rfl), List.countP_nil]; omega
    · exact .inr (.inl ⟨pre, s, post ++ [f], ks, n, x, by simp, h1, h2, h3⟩)
    · exact .inr (.inr ⟨pre, s, post ++ [f], ks, n, by simp, h1, h2⟩)

theorem multi_verdict {c : MultiSig} {h : Arr 32} {typ : UInt8} {o : Outcome TxError (Arr 32)}
    (hv : MultiVerdict c h typ o) : c.verify h typ = o := by
  have loop : ∀ {ks n}, Recovers typ c.fee c.nonce h c.fields ks n → c.fields.countP isSignature < 256 →
      verifyFields typ c.fee c.nonce c.fields [] h 0 = .ok (ks, n, UInt8.ofNat (c.fields.countP isSignature)) := by
    intro ks n hr hc
    rw [verifyFields_iff]
    exact ⟨ks, n, hr, by simpa using hc, by simp⟩
  have enough : c.required.toNat ≤ c.fields.countP isSignature → c.fields.countP isSignature < 256 →
      ¬ UInt8.ofNat (c.fields.countP isSignature) < c.required := by
    intro h1 h2
    rw [UInt8.lt_iff_toNat_lt, UInt8.toNat_ofNat', Nat.mod_eq_of_lt h2]; omega
  rw [multi_verify_eq]
  cases hv with
  | @noKey pre s post ks n x hf hc hr hx =>
    have : verifyFields typ c.fee c.nonce pre [] h 0 = .ok (ks, n, UInt8.ofNat (pre.countP isSignature)) := by
      rw [verifyFields_iff]; exact ⟨ks, n, hr, by simpa using hc, by simp⟩
    rw [hf, verifyFields_append, this, Outcome.ok_bind, verifyFields, nextVerify_fails hx]; rfl
  | @tooMany pre s post ks n hf hc hr =>
    obtain ⟨ks', n', hp, k, hk⟩ : ∃ ks' n', Recovers typ c.fee c.nonce h pre ks' n' ∧
        ∃ k, RecoversKey (presignDigest n' typ c.fee c.nonce) s k := by
      clear hf hc loop
      induction pre generalizing h ks with
      | nil => cases hr with | msg _ _ _ k _ _ hk _ => exact ⟨_, _, .nil _, k, hk⟩
      | cons f pre ih =>
        rw [List.cons_append] at hr
        cases hr with
        | pk _ _ k _ ks hr => obtain ⟨ks', n', h1, h2⟩ := ih hr; exact ⟨_, _, .pk _ _ _ _ _ h1, h2⟩
        | msg _ _ s k _ ks hk hr => obtain ⟨ks', n', h1, h2⟩ := ih hr; exact ⟨_, _, .msg _ _ _ _ _ _ hk h1, h2⟩
    have : verifyFields typ c.fee c.nonce pre [] h 0 = .ok (ks', n', UInt8.ofNat (pre.countP isSignature)) := by
      rw [verifyFields_iff]; exact ⟨ks', n', hp, by rw [hc]; decide, by simp⟩
    rw [hf, verifyFields_append, this, Outcome.ok_bind, verifyFields,
      (nextVerify_iff _ _ _ _ _ _ _).2 ⟨hk, rfl⟩, hc]
    rfl
  | @tooFew ks n hr hc =>
    have hlt : c.fields.countP isSignature < 256 := by have := c.required.toNat_lt; omega
    rw [loop hr hlt, Outcome.ok_bind]
    simp only []
    rw [if_pos (by rw [UInt8.lt_iff_toNat_lt, UInt8.toNat_ofNat', Nat.mod_eq_of_lt hlt]; exact hc)]
  | @noScript ks n hr h1 h2 h3 =>
    rw [loop hr h2, Outcome.ok_bind]
    simp only []
    rw [if_neg (enough h1 h2)]
    rcases signerHash_cases (ε := TxError) c.mode c.required ks with ⟨s, hs⟩ | hs
    · rw [signerHash_iff] at hs
      obtain ⟨a, b, d⟩ := hs
      rcases h3 with h3 | h3 | h3
      · omega
      · omega
      · rw [h3] at d; cases d
    · rw [hs]; rfl
  | @wrongKeys ks n s hr h1 h2 h3 h4 h5 h6 =>
    rw [loop hr h2, Outcome.ok_bind]
    simp only []
    rw [if_neg (enough h1 h2), (signerHash_iff _ _ _ _).2 ⟨h3, h4, h5⟩, Outcome.ok_bind, if_pos h6,
      Hex.bytesToHex_eq, Hex.bytesToHex_eq]
  | @valid ks n hr h1 h2 h3 h4 h5 =>
    rw [loop hr h2, Outcome.ok_bind]
    simp only []
    rw [if_neg (enough h1 h2), (signerHash_iff _ _ _ _).2 ⟨h3, h4, h5⟩, Outcome.ok_bind, if_neg (by simp)]

theorem multi_verdict_exists (c : MultiSig) (h : Arr 32) (typ : UInt8) : ∃ o, MultiVerdict c h typ o := by
  rcases fields_cases typ c.fee c.nonce c.fields h with ⟨ks, n, hr, hc⟩ | ⟨pre, s, post, ks, n, x, h1, h2, h3, h4⟩ |
    ⟨pre, s, post, ks, n, h1, h2, h3⟩
  · by_cases hm : c.required.toNat ≤ c.fields.countP isSignature
    · by_cases h175 : c.required.toNat ≤ 175 ∧ ks.length % 256 ≤ 175
      · cases hs : scriptSigner c.mode c.required.toNat ks with
        | none => exact ⟨_, .noScript hr hm hc (.inr (.inr hs))⟩
        | some s =>
          by_cases he : s = c.signer
          · subst he; exact ⟨_, .valid hr hm hc h175.1 h175.2 hs⟩
          · exact ⟨_, .wrongKeys hr hm hc h175.1 h175.2 hs he⟩
      · refine ⟨_, .noScript hr hm hc ?_⟩
        by_cases h : c.required.toNat ≤ 175
        · exact .inr (.inl (by omega))
        · exact .inl (by omega)
    · exact ⟨_, .tooFew hr (by omega)⟩
  · exact ⟨_, .noKey h1 h2 h3 h4⟩
  · exact ⟨_, .tooMany h1 h2 h3⟩

theorem spending_verdict {c : Spending} {h : Arr 32} {typ : UInt8} {o : Outcome TxError (Arr 32)}
    (hv : SpendingVerdict h typ c o) : c.verify h typ = o := by
  cases hv with
  | single hv => exact single_verdict hv
  | multi hv => exact multi_verdict hv

theorem spending_verdict_iff (c : Spending) (h : Arr 32) (typ : UInt8) (o : Outcome TxError (Arr 32)) :
    c.verify h typ = o ↔ SpendingVerdict h typ c o := by
  refine ⟨?_, spending_verdict⟩
  rintro rfl
  have : ∃ o, SpendingVerdict h typ c o := by
    cases c with
    | single c => obtain ⟨o, ho⟩ := single_verdict_exists c h typ; exact ⟨o, .single ho⟩
    | multi c => obtain ⟨o, ho⟩ := multi_verdict_exists c h typ; exact ⟨o, .multi ho⟩
  obtain ⟨o, ho⟩ := this
  rw [spending_verdict ho]; exact ho

theorem origin_verdict_iff (t : Transaction) (o : Outcome TxError (Arr 32)) :
    t.verifyOrigin = o ↔ OriginVerdict t o := by
  by_cases hb : EncodableBody t
  · rw [verifyOrigin_eq t hb, spending_verdict_iff]
    constructor
    · exact fun h => .origin hb h
    · intro h
      cases h with
      | body hf =>
        have := (initialHash_fails hf).symm.trans (initialHash_eq t hb)
        cases this
      | origin _ h => exact h
  · constructor
    · rintro rfl
      obtain ⟨e, he⟩ := bodyFails_exists hb
      have : t.verifyOrigin = .err (.clarity e) := by
        unfold Transaction.verifyOrigin; rw [initialHash_fails he]; rfl
      rw [this]; exact .body he
    · intro h
      cases h with
      | body hf => unfold Transaction.verifyOrigin; rw [initialHash_fails hf]; rfl
      | origin hb' _ => exact absurd hb' hb

theorem auth_verdict_iff (a : Auth) (h : Arr 32) (o : Outcome TxError Unit) :
    a.verify h = o ↔ AuthVerdict h a o := by
  have key : ∀ {o}, AuthVerdict h a o → a.verify h = o := by
    intro o hv
    cases hv with
    | standard => rfl
    | originFails h1 => rw [Auth.verify]; rw [show Spending.verify _ h authTypeStandard = _ from spending_verdict h1]; rfl
    | originPanics h1 => rw [Auth.verify]; rw [show Spending.verify _ h authTypeStandard = _ from spending_verdict h1]; rfl
    | sponsorFails h1 h2 =>
      rw [Auth.verify, show Spending.verify _ h authTypeStandard = _ from spending_verdict h1, Outcome.ok_bind,
        show Spending.verify _ _ authTypeSponsored = _ from spending_verdict h2]; rfl
    | sponsorPanics h1 h2 =>
      rw [Auth.verify, show Spending.verify _ h authTypeStandard = _ from spending_verdict h1, Outcome.ok_bind,
        show Spending.verify _ _ authTypeSponsored = _ from spending_verdict h2]; rfl
    | valid h1 h2 =>
      rw [Auth.verify, show Spending.verify _ h authTypeStandard = _ from spending_verdict h1, Outcome.ok_bind,
        show Spending.verify _ _ authTypeSponsored = _ from spending_verdict h2]; rfl
  refine ⟨?_, key⟩
  rintro rfl
  have : ∃ o, AuthVerdict h a o := by
    cases a with
    | standard o => exact ⟨_, .standard⟩
    | sponsored o s =>
      have h1 := (spending_verdict_iff o h 4 _).1 rfl
      cases hv : o.verify h 4 with
      | err e => rw [hv] at h1; exact ⟨_, .originFails h1⟩
      | panic => rw [hv] at h1; exact ⟨_, .originPanics h1⟩
      | ok n =>
        rw [hv] at h1
        have h2 := (spending_verdict_iff s n 5 _).1 rfl
        cases hv2 : s.verify n 5 with
        | err e => rw [hv2] at h2; exact ⟨_, .sponsorFails h1 h2⟩
        | panic => rw [hv2] at h2; exact ⟨_, .sponsorPanics h1 h2⟩
        | ok n' => rw [hv2] at h2; exact ⟨_, .valid h1 h2⟩
  obtain ⟨o, ho⟩ := this
  rw [key ho]; exact ho

end

end Stacks.Tx
