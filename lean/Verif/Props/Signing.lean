import Verif.Proofs.Flow
import Verif.Props.Transaction

/-! # Properties C47 and C49 - C55: signing and verification -/

namespace Stacks.Tx
open Stacks.Spec Stacks.Clarity

section
variable [Secp] [Hashes]

/-! ## C47 -/

/-- **C47** A single-signature transaction created for the public key `P` can be signed with every
secret key `k`. If `k` belongs to `P` the origin then verifies and yields the signer's hash; if the
hashes of the two keys differ, verification fails with `BadSigner`, naming both. -/
theorem C47_sign_then_verify [Secp.Lawful] (t : Transaction) (P : Secp.PK) (fee nonce : UInt64) (mode : C32.Mode)
    (c : SingleSig) (k : Secp.SK) (hnew : (SingleSig.new P fee nonce mode : Outcome TxError SingleSig) = .ok c)
    (hc : t.auth.origin = .single c) (hb : EncodableBody t) :
    ∃ s, (Signer.new t >>= fun s => s.signOrigin k) = .ok s ∧ t.sign k = .ok s.tx ∧
      (Secp.pub k = P → s.tx.verifyOrigin = .ok s.hash) ∧
      (keySigner mode (Secp.pub k) ≠ keySigner mode P →
        ∃ want got, keySigner mode P = some want ∧ keySigner mode (Secp.pub k) = some got ∧
          s.tx.verifyOrigin = .err (.badSigner (Hex.bytesToHex want.1) (Hex.bytesToHex got.1))) ∧
      (∀ n, s.tx.verifyOrigin = .ok n → n = s.hash ∧ keySigner mode (Secp.pub k) = keySigner mode P) := by
  obtain ⟨hm, hfee, hnon, hsig, hns⟩ := (single_new_iff P fee nonce mode c).1 hnew
  have hmode : c.mode = .p2pkh ∨ c.mode = .p2wpkh := by
    rw [hm]; cases mode <;> first | exact .inl rfl | exact .inr rfl | cases hsig
  have hfit : ModeFits t.auth.origin := by rw [hc]; exact hmode
  have hcnt : signatureCount t.auth.origin < requiredCount t.auth.origin := by
    rw [hc]; show (if c.signature = noSignature then 0 else 1) < 1; rw [if_pos hns]; exact Nat.one_pos
  have hs0 := (signer_new_iff t _).2 ⟨hb, rfl⟩
  have hs1 := (signOrigin_iff ⟨t, Hashes.sha512_256 (signingPreimage t), false, true, true⟩ _ k).2
    ⟨by simp, fun _ => hcnt, hfit, rfl⟩
  have hv : ∀ got, keySigner mode (Secp.pub k) = some got →
      (Signer.withOrigin ⟨t, Hashes.sha512_256 (signingPreimage t), false, true, true⟩ k).tx.verifyOrigin =
      if got = c.signer then
        .ok (Signer.withOrigin ⟨t, Hashes.sha512_256 (signingPreimage t), false, true, true⟩ k).hash
      else .err (.badSigner (Hex.bytesToHex c.signer.1) (Hex.bytesToHex got.1)) := by
    intro got hg
    have hsb : SameBody (Signer.withOrigin ⟨t, Hashes.sha512_256 (signingPreimage t), false, true, true⟩ k).tx t :=
      sameBody_setOrigin t _ (signed_cleared _ _)
    rw [verifyOrigin_eq _ (hsb.encodable.2 hb), hsb.preimage]
    show (t.auth.setOrigin _).origin.verify _ 4 = _
    rw [origin_setOrigin, hc]
    show SingleSig.verify { c with signature := _ } _ 4 = _
    have e : (Signer.mk t (Hashes.sha512_256 (signingPreimage t)) false true true).originSig k =
        signatureBytes (presignDigest (Hashes.sha512_256 (signingPreimage t)) 4 c.fee c.nonce) k := by
      unfold Signer.originSig; rw [hc]; rfl
    rw [single_verify_recovered _ _ 4 (Secp.pub k) got (by rw [e]; exact recovers_signature _ _) (by rw [← hm] at hg; exact hg)]
    unfold Signer.withOrigin
    simp only [hc, Spending.fee, Spending.nonce]
  have hgot : ∃ got, keySigner mode (Secp.pub k) = some got := by
    cases mode <;> first | exact ⟨_, rfl⟩ | cases hsig
  obtain ⟨got, hgot⟩ := hgot
  refine ⟨_, by rw [hs0]; exact hs1, by unfold Transaction.sign; rw [hs0, Outcome.ok_bind, hs1]; rfl, ?_, ?_, ?_⟩
  · rintro rfl
    rw [hv got hgot, if_pos (Option.some.inj (hgot.symm.trans hsig))]
  · intro hne
    refine ⟨c.signer, got, hsig, hgot, ?_⟩
    rw [hv got hgot, if_neg (fun he => hne (by rw [hgot, hsig, he]))]
  · intro n hn
    rw [hv got hgot] at hn
    split at hn
    · rename_i he
      exact ⟨(Outcome.ok.inj hn).symm, by rw [hgot, hsig, he]⟩
    · cases hn

/-- **C47** For pay-to-public-key-hash the condition is that the two keys have the same HASH160;
for the witness form, that or two explicit witness programs with the same HASH160. -/
theorem C47_same_hash160 (k P : Secp.PK) :
    (keySigner .p2pkh k = keySigner .p2pkh P →
      hash160Of (Secp.serialize k).1 = hash160Of (Secp.serialize P).1) ∧
    (keySigner .p2wpkh k = keySigner .p2wpkh P →
      hash160Of (Secp.serialize k).1 = hash160Of (Secp.serialize P).1 ∨
      (0x00 :: 0x14 :: (hash160Of (Secp.serialize k).1).1 ≠ 0x00 :: 0x14 :: (hash160Of (Secp.serialize P).1).1 ∧
        hash160Of (0x00 :: 0x14 :: (hash160Of (Secp.serialize k).1).1) =
          hash160Of (0x00 :: 0x14 :: (hash160Of (Secp.serialize P).1).1))) := by
  refine ⟨fun h => Option.some.inj h, fun h => ?_⟩
  by_cases he : hash160Of (Secp.serialize k).1 = hash160Of (Secp.serialize P).1
  · exact .inl he
  · refine .inr ⟨fun h2 => he ?_, Option.some.inj h⟩
    exact Subtype.ext (List.cons.inj (List.cons.inj h2).2).2

/-! ## C49 -/

/-- **C49** Single signatures: if the origins of two transactions with the same signer hash verify
with the same signature, then everything signed agrees, fee and nonce included, or one of three
things is in hand: two signing preimages with the same SHA-512/256, two messages to be signed with
the same SHA-512/256, or two different digests under which the signature recovers keys with the
same hash. -/
theorem C49_single_binding (t t' : Transaction) (c c' : SingleSig) (n n' : Arr 32)
    (h : WellFormedTransaction t) (h' : WellFormedTransaction t')
    (hc : t.auth.origin = .single c) (hc' : t'.auth.origin = .single c')
    (hsig : c.signature = c'.signature) (hsigner : c.signer = c'.signer)
    (hv : t.verifyOrigin = .ok n) (hv' : t'.verifyOrigin = .ok n') :
    (signedContent t = signedContent t' ∧ c.fee = c'.fee ∧ c.nonce = c'.nonce) ∨
    (signingPreimage t ≠ signingPreimage t' ∧
      Hashes.sha512_256 (signingPreimage t) = Hashes.sha512_256 (signingPreimage t')) ∨
    (∃ x x', x = presignInput (Hashes.sha512_256 (signingPreimage t)) 4 c.fee c.nonce ∧
      x' = presignInput (Hashes.sha512_256 (signingPreimage t')) 4 c'.fee c'.nonce ∧ x ≠ x' ∧
      Hashes.sha512_256 x = Hashes.sha512_256 x') ∨
    (∃ m m' k k', m = presignDigest (Hashes.sha512_256 (signingPreimage t)) 4 c.fee c.nonce ∧
      m' = presignDigest (Hashes.sha512_256 (signingPreimage t')) 4 c'.fee c'.nonce ∧ m ≠ m' ∧
      RecoversKey m c.signature k ∧ RecoversKey m' c.signature k' ∧
      keySigner c.mode k = some c.signer ∧ keySigner c'.mode k' = some c.signer) := by
  obtain ⟨_, hv⟩ := (verifyOrigin_iff t n).1 hv
  obtain ⟨_, hv'⟩ := (verifyOrigin_iff t' n').1 hv'
  rw [hc] at hv; rw [hc'] at hv'
  obtain ⟨k, r1, s1, _⟩ := (single_verify_iff c _ 4 n).1 hv
  obtain ⟨k', r2, s2, _⟩ := (single_verify_iff c' _ 4 n').1 hv'
  rw [← hsig] at r2; rw [← hsigner] at s2
  by_cases hd : presignDigest (Hashes.sha512_256 (signingPreimage t)) 4 c.fee c.nonce =
      presignDigest (Hashes.sha512_256 (signingPreimage t')) 4 c'.fee c'.nonce
  · by_cases hi : presignInput (Hashes.sha512_256 (signingPreimage t)) 4 c.fee c.nonce =
        presignInput (Hashes.sha512_256 (signingPreimage t')) 4 c'.fee c'.nonce
    · obtain ⟨h1, _, h3, h4⟩ := presignInput_inj hi
      by_cases hp : signingPreimage t = signingPreimage t'
      · exact .inl ⟨C44_preimage_determines t t' h h' hp, h3, h4⟩
      · exact .inr (.inl ⟨hp, h1⟩)
    · exact .inr (.inr (.inl ⟨_, _, rfl, rfl, hi, hd⟩))
  · exact .inr (.inr (.inr ⟨_, _, k, k', rfl, rfl, hd, r1, r2, s1, s2⟩))

/-- **C49** Several signatures, at least one: the same with the keys recovered along all fields. -/
theorem C49_multi_binding (t t' : Transaction) (c c' : MultiSig) (n n' : Arr 32)
    (h : WellFormedTransaction t) (h' : WellFormedTransaction t')
    (hc : t.auth.origin = .multi c) (hc' : t'.auth.origin = .multi c')
    (hf : c.fields = c'.fields) (hone : 0 < c.fields.countP isSignature) (hsigner : c.signer = c'.signer)
    (hv : t.verifyOrigin = .ok n) (hv' : t'.verifyOrigin = .ok n') :
    (signedContent t = signedContent t' ∧ c.fee = c'.fee ∧ c.nonce = c'.nonce) ∨
    (signingPreimage t ≠ signingPreimage t' ∧
      Hashes.sha512_256 (signingPreimage t) = Hashes.sha512_256 (signingPreimage t')) ∨
    (∃ x x', x = presignInput (Hashes.sha512_256 (signingPreimage t)) 4 c.fee c.nonce ∧
      x' = presignInput (Hashes.sha512_256 (signingPreimage t')) 4 c'.fee c'.nonce ∧ x ≠ x' ∧
      Hashes.sha512_256 x = Hashes.sha512_256 x') ∨
    (∃ m m' sig k k' ks ks', m = presignDigest (Hashes.sha512_256 (signingPreimage t)) 4 c.fee c.nonce ∧
      m' = presignDigest (Hashes.sha512_256 (signingPreimage t')) 4 c'.fee c'.nonce ∧ m ≠ m' ∧
      (c.fields.find? isSignature = some (.msg sig)) ∧ RecoversKey m sig k ∧ RecoversKey m' sig k' ∧
      k ∈ ks ∧ k' ∈ ks' ∧
      scriptSigner c.mode c.required.toNat ks = some c.signer ∧
      scriptSigner c'.mode c'.required.toNat ks' = some c.signer) := by
  obtain ⟨_, hv⟩ := (verifyOrigin_iff t n).1 hv
  obtain ⟨_, hv'⟩ := (verifyOrigin_iff t' n').1 hv'
  rw [hc] at hv; rw [hc'] at hv'
  obtain ⟨ks, r1, _, _, _, s1⟩ := (multi_verify_iff c _ 4 n).1 hv
  obtain ⟨ks', r2, _, _, _, s2⟩ := (multi_verify_iff c' _ 4 n').1 hv'
  rw [← hf] at r2; rw [← hsigner] at s2
  by_cases hd : presignDigest (Hashes.sha512_256 (signingPreimage t)) 4 c.fee c.nonce =
      presignDigest (Hashes.sha512_256 (signingPreimage t')) 4 c'.fee c'.nonce
  · by_cases hi : presignInput (Hashes.sha512_256 (signingPreimage t)) 4 c.fee c.nonce =
        presignInput (Hashes.sha512_256 (signingPreimage t')) 4 c'.fee c'.nonce
    · obtain ⟨h1, _, h3, h4⟩ := presignInput_inj hi
      by_cases hp : signingPreimage t = signingPreimage t'
      · exact .inl ⟨C44_preimage_determines t t' h h' hp, h3, h4⟩
      · exact .inr (.inl ⟨hp, h1⟩)
    · exact .inr (.inr (.inl ⟨_, _, rfl, rfl, hi, hd⟩))
  · obtain ⟨sig, k, hk1, hk2, hk3⟩ := recovers_first r1 hone
    obtain ⟨sig', k', hk1', hk2', hk3'⟩ := recovers_first r2 hone
    rw [hk1] at hk1'
    obtain rfl : sig = sig' := by simpa using hk1'
    exact .inr (.inr (.inr ⟨_, _, sig, k, k', ks, ks', rfl, rfl, hd, hk1, hk2, hk2', hk3, hk3', s1, s2⟩))

/-! ## C50 -/

/-- **C50** An origin requiring `m` of the participants' keys: walking the participants in order,
each signing or only having their key appended, exactly `m` of them signing, yields a
transaction whose origin verifies. With the check for too many signatures switched off
(`oversign = false`), any number of signers from `m` to 255 will do. -/
theorem C50_multisig_flow [Secp.Lawful] (t : Transaction) (ps : List Participant) (fee nonce : UInt64) (m : UInt8)
    (mode : C32.Mode) (c : MultiSig) (oversign : Bool)
    (hnew : (MultiSig.new (ps.map Participant.key) fee nonce m mode : Outcome TxError MultiSig) = .ok c)
    (hc : t.auth.origin = .multi c) (hb : EncodableBody t)
    (hm : m.toNat ≤ ps.countP Participant.isSigner) (hmax : ps.countP Participant.isSigner < 256)
    (hover : oversign = true → ps.countP Participant.isSigner = m.toNat) :
    ∃ s, (Signer.new t >>= fun s => walk { s with verifyOversign := oversign } ps) = .ok s ∧
      s.tx.verifyOrigin = .ok s.hash ∧
      ((fieldsOf s.tx.auth.origin).map isSignature = ps.map Participant.isSigner) ∧
      s.tx.auth.sponsor = t.auth.sponsor := by
  obtain ⟨⟨h175, hlen⟩, hsig, hce⟩ := (multi_new_iff _ fee nonce m mode c).1 hnew
  have hfields : c.fields = [] := by rw [hce]
  have hreq : c.required = m := by rw [hce]
  have hmo : c.mode = mode := by rw [hce]
  have hmode : c.mode = .p2sh ∨ c.mode = .p2wsh := by
    rw [hmo]; cases mode <;> first | exact .inl rfl | exact .inr rfl | cases hsig
  have hs0 := (signer_new_iff t _).2 ⟨hb, rfl⟩
  obtain ⟨s', gs, h1, h2, h3, h4, _⟩ := walk_ok ps
    ⟨t, Hashes.sha512_256 (signingPreimage t), false, oversign, true⟩ c hc hmode (by simp)
    (fun he => by rw [hfields, hreq, List.countP_nil]; have := hover he; omega)
  refine ⟨s', by rw [hs0]; exact h1, ?_, ?_, ?_⟩
  · have hsb : SameBody s'.tx t := by
      rw [h2]; exact sameBody_setOrigin t _ (by rw [hc]; rfl)
    rw [verifyOrigin_iff]
    refine ⟨hsb.encodable.2 hb, ?_⟩
    rw [hsb.preimage, h2]
    show (t.auth.setOrigin _).origin.verify _ 4 = _
    rw [origin_setOrigin]
    show MultiSig.verify _ _ 4 = _
    rw [multi_verify_iff]
    simp only [hfields, List.nil_append]
    have hcount : gs.countP isSignature = ps.countP Participant.isSigner := by
      have e1 : (gs.map isSignature).countP id = gs.countP isSignature := by rw [List.countP_map]; rfl
      have e2 : (ps.map Participant.isSigner).countP id = ps.countP Participant.isSigner := by
        rw [List.countP_map]; rfl
      rw [← e1, ← e2, h4]
    exact ⟨_, h3, by rw [hcount, hreq]; exact hm, by rw [hcount]; exact hmax,
      ⟨by rw [hreq]; exact h175, hlen⟩, by rw [hreq, hmo]; exact hsig⟩
  · rw [h2]
    show (fieldsOf (t.auth.setOrigin _).origin).map _ = _
    rw [origin_setOrigin]
    show (c.fields ++ gs).map _ = _
    rw [hfields, List.nil_append]; exact h4
  · rw [h2]; exact sponsor_setOrigin _ _

/-- **C50** With the default checks, more than `m` signers end in `OriginOversign`. -/
theorem C50_too_many_signers (t : Transaction) (ps : List Participant) (fee nonce : UInt64) (m : UInt8)
    (mode : C32.Mode) (c : MultiSig)
    (hnew : (MultiSig.new (ps.map Participant.key) fee nonce m mode : Outcome TxError MultiSig) = .ok c)
    (hc : t.auth.origin = .multi c) (hb : EncodableBody t) (hm : m.toNat < ps.countP Participant.isSigner) :
    (Signer.new t >>= fun s => walk s ps) = .err .originOversign := by
  obtain ⟨_, hsig, hce⟩ := (multi_new_iff _ fee nonce m mode c).1 hnew
  have hfields : c.fields = [] := by rw [hce]
  have hreq : c.required = m := by rw [hce]
  have hmo : c.mode = mode := by rw [hce]
  have hmode : c.mode = .p2sh ∨ c.mode = .p2wsh := by
    rw [hmo]; cases mode <;> first | exact .inl rfl | exact .inr rfl | cases hsig
  rw [(signer_new_iff t _).2 ⟨hb, rfl⟩, Outcome.ok_bind]
  refine walk_oversign ps _ c hc hmode (by simp) rfl ?_ ?_
  · rw [hfields]; simp
  · rw [hfields, hreq]; simpa using hm

/-! ## C51 -/

/-- **C51** With too few signatures verification fails: with `BadSignatureCount`, or because a
signature is not recoverable. -/
theorem C51_too_few (c : MultiSig) (h : Arr 32) (typ : UInt8)
    (hc : c.fields.countP isSignature < c.required.toNat) :
    c.verify h typ = .err (.badSignatureCount c.required (UInt8.ofNat (c.fields.countP isSignature))) ∨
    ∃ e, c.verify h typ = .err (.hash e) := by
  have hlt := c.required.toNat_lt
  rw [multi_verify_eq]
  rcases verifyFields_err typ c.fee c.nonce c.fields [] h 0 (by simp; omega) with ⟨r, hr⟩ | ⟨e, he⟩
  · rw [hr, Outcome.ok_bind]
    obtain ⟨ks, h', _, _, rfl⟩ := (verifyFields_iff _ _ _ _ _ _ _ _).1 hr
    simp only [show (0 : UInt8).toNat = 0 from rfl, Nat.zero_add]
    rw [if_pos (by rw [UInt8.lt_iff_toNat_lt, UInt8.toNat_ofNat', Nat.mod_eq_of_lt (by omega)]; exact hc)]
    exact .inl rfl
  · rw [he]; exact .inr ⟨e, rfl⟩

/-- **C51** If all signatures are recoverable it is `BadSignatureCount(required, count)`. -/
theorem C51_bad_signature_count (c : MultiSig) (h n : Arr 32) (typ : UInt8) (ks : List Secp.PK)
    (hr : Recovers typ c.fee c.nonce h c.fields ks n)
    (hc : c.fields.countP isSignature < c.required.toNat) :
    c.verify h typ = .err (.badSignatureCount c.required (UInt8.ofNat (c.fields.countP isSignature))) := by
  have hlt := c.required.toNat_lt
  rw [multi_verify_eq, (verifyFields_iff typ c.fee c.nonce c.fields [] h 0 _).2
    ⟨ks, n, hr, by simp; omega, rfl⟩, Outcome.ok_bind]
  simp only [show (0 : UInt8).toNat = 0 from rfl, Nat.zero_add]
  rw [if_pos (by rw [UInt8.lt_iff_toNat_lt, UInt8.toNat_ofNat', Nat.mod_eq_of_lt (by omega)]; exact hc)]

/-- **C51** So a transaction whose multi-sig origin verifies, has at least the required signatures. -/
theorem C51_verified_enough (t : Transaction) (c : MultiSig) (n : Arr 32) (hc : t.auth.origin = .multi c)
    (hv : t.verifyOrigin = .ok n) : c.required.toNat ≤ c.fields.countP isSignature := by
  obtain ⟨_, hv⟩ := (verifyOrigin_iff t n).1 hv
  rw [hc] at hv
  obtain ⟨_, _, h, _⟩ := (multi_verify_iff c _ 4 n).1 hv
  exact h

/-! ## C52 -/

/-- **C52** Along every sequence of calls on a signer with the default checks (failed calls being
ignored), neither part exceeds its required number of signatures, and no call panics. -/
theorem C52_never_oversigns (s : Signer) (hv : s.verifyOversign = true) (hw : WithinRequired s.tx.auth)
    (ops : List SignerOp) :
    WithinRequired (after s ops).tx.auth ∧ ∀ op : SignerOp, op.call (after s ops) ≠ .panic := by
  have := after_induction (fun s => s.verifyOversign = true ∧ WithinRequired s.tx.auth)
    (fun op s s' h hs => ⟨(call_flags op s s' hs).1.trans h.1, call_within op s s' h.1 h.2 hs⟩) ops s ⟨hv, hw⟩
  exact ⟨this.2, fun op => call_no_panic op _ this.2⟩

/-- **C52** In particular starting from `TransactionSigner::new` and `new_sponser`. -/
theorem C52_from_new (t : Transaction) (s : Signer) (hw : WithinRequired t.auth) (h : Signer.new t = .ok s)
    (ops : List SignerOp) : WithinRequired (after s ops).tx.auth := by
  obtain ⟨_, rfl⟩ := (signer_new_iff t s).1 h
  exact (C52_never_oversigns _ rfl hw ops).1

theorem C52_from_new_sponsor (t : Transaction) (c : Spending) (s : Signer) (hw : WithinRequired t.auth)
    (hc : signatureCount c ≤ requiredCount c) (h : Signer.newSponsor t c = .ok s)
    (ops : List SignerOp) : WithinRequired (after s ops).tx.auth := by
  obtain ⟨o, c', n, ha, _, rfl⟩ := (newSponsor_iff t c s).1 h
  refine (C52_never_oversigns _ rfl ⟨?_, ?_⟩ ops).1
  · have := hw.1; rw [ha] at this; exact this
  · intro p hp; cases hp; exact hc

/-- **C52** Once the sponsor has signed, the origin is never changed again. -/
theorem C52_origin_frozen (s s' : Signer) (k : Secp.SK) (hv : s.verifyOverlap = true)
    (h : s.signSponsor k = .ok s') (ops : List SignerOp) :
    (after s' ops).tx.auth.origin = s.tx.auth.origin := by
  obtain ⟨o, c, ha, _, _, rfl⟩ := (signSponsor_iff s s' k).1 h
  have := after_induction
    (fun s => (s.verifyOverlap = true ∧ s.originSigned = true) ∧ s.tx.auth.origin = o)
    (fun op s s' h hs => by
      obtain ⟨f1, f2, f3⟩ := call_flags op s s' hs
      refine ⟨⟨f2.trans h.1.1, f3 h.1.2⟩, ?_⟩
      cases op with
      | signOrigin k => obtain ⟨hn, _⟩ := (signOrigin_iff _ _ _).1 hs; exact absurd h.1 hn
      | appendOrigin k => obtain ⟨hn, _⟩ := (appendOrigin_iff _ _ _).1 hs; exact absurd h.1 hn
      | signSponsor k =>
        obtain ⟨o', c', ha', _, _, rfl⟩ := (signSponsor_iff _ _ _).1 hs
        have h2 := h.2
        rw [ha'] at h2
        exact h2)
    ops (s.withSponsor o c k) ⟨⟨hv, rfl⟩, rfl⟩
  rw [this.2, ha]; rfl

/-- **C52** The errors: signing or appending to the origin after the sponsor. -/
theorem C52_post_sponsor_errors (s s' : Signer) (k : Secp.SK) (hv : s.verifyOverlap = true)
    (h : s.signSponsor k = .ok s') (k' : Secp.SK) (p : Secp.PK) :
    s'.signOrigin k' = .err .originPostSponsorSign ∧ s'.appendOrigin p = .err .originPostSponsorAppend := by
  obtain ⟨o, c, ha, _, _, rfl⟩ := (signSponsor_iff s s' k).1 h
  have hh : (s.withSponsor o c k).verifyOverlap = true ∧ (s.withSponsor o c k).originSigned = true := ⟨hv, rfl⟩
  constructor
  · rw [signOrigin_eq, if_pos hh]
  · unfold Signer.appendOrigin
    rw [if_pos (by rw [hh.1, hh.2]; rfl)]

/-- **C52** An origin, or sponsor, that has all its signatures refuses another. -/
theorem C52_full_refuses (s : Signer) (k : Secp.SK) (hv : s.verifyOversign = true) :
    (s.originSigned = false → signatureCount s.tx.auth.origin = requiredCount s.tx.auth.origin →
      s.signOrigin k = .err .originOversign) ∧
    (∀ c, s.tx.auth.sponsor = .ok c → signatureCount c = requiredCount c → s.signSponsor k = .err .sponsorOversign) := by
  constructor
  · intro ho he
    have := requiredCount_lt s.tx.auth.origin
    rw [signOrigin_eq, if_neg (by rw [ho]; simp), if_neg (by omega), if_pos ⟨hv, by omega⟩]
  · intro c hc he
    have := requiredCount_lt c
    rw [signSponsor_eq]
    cases ha : s.tx.auth with
    | standard o => rw [ha] at hc; cases hc
    | sponsored o c' =>
      rw [ha] at hc; cases hc
      simp only []
      rw [if_neg (by omega), if_pos ⟨hv, by omega⟩]

/-! ## C53 -/

/-- **C53** Replacing the sponsor does not change the verification of the origin. -/
theorem C53_origin_independent_of_sponsor (t : Transaction) (o p q : Spending) (h : t.auth = .sponsored o p) :
    Transaction.verifyOrigin { t with auth := .sponsored o q } = t.verifyOrigin := by
  obtain ⟨v, c, a, am, pm, pcs, pl⟩ := t
  simp only [] at h
  subst h
  rfl

/-- **C53** A sponsored transaction whose origin verifies: `new_sponser` accepts any sponsor made
for a key `k`, of any fee and nonce; signing with `k` succeeds; and the result verifies with
`Auth::verify`, its origin verifying as before. -/
theorem C53_sponsored_flow [Secp.Lawful] (t : Transaction) (o p : Spending) (n : Arr 32) (k : Secp.SK)
    (fee nonce : UInt64) (mode : C32.Mode) (q : SingleSig) (ha : t.auth = .sponsored o p)
    (hv : t.verifyOrigin = .ok n)
    (hnew : (SingleSig.new (Secp.pub k) fee nonce mode : Outcome TxError SingleSig) = .ok q) :
    ∃ s s' h, Signer.newSponsor t (.single q) = .ok s ∧ s.signSponsor k = .ok s' ∧
      s'.tx.initialHash = .ok h ∧ s'.tx.initialHash = t.initialHash ∧
      s'.tx.auth.verify h = .ok () ∧ s'.tx.verifyOrigin = .ok n ∧ s'.tx.auth.origin = o := by
  obtain ⟨hm, hfee, hnon, hsig, hns⟩ := (single_new_iff (Secp.pub k) fee nonce mode q).1 hnew
  have hmode : q.mode = .p2pkh ∨ q.mode = .p2wpkh := by
    rw [hm]; cases mode <;> first | exact .inl rfl | exact .inr rfl | cases hsig
  have hv2 : Transaction.verifyOrigin { t with auth := .sponsored o (.single q) } = .ok n := by
    rw [C53_origin_independent_of_sponsor t o p _ ha, hv]
  have h1 := (newSponsor_iff t (.single q) _).2 ⟨o, p, n, ha, hv2, rfl⟩
  have hcnt : signatureCount (.single q) < requiredCount (.single q) := by
    show (if q.signature = noSignature then 0 else 1) < 1; rw [if_pos hns]; exact Nat.one_pos
  have h2 := (signSponsor_iff ⟨{ t with auth := .sponsored o (.single q) }, n, true, true, true⟩ _ k).2
    ⟨o, .single q, rfl, fun _ => hcnt, hmode, rfl⟩
  obtain ⟨hb, hvo⟩ := (verifyOrigin_iff t n).1 hv
  have hsb : SameBody (Signer.withSponsor ⟨{ t with auth := .sponsored o (.single q) }, n, true, true, true⟩ o
      (.single q) k).tx t := ⟨by rw [ha]; rfl, rfl, rfl, rfl, rfl, rfl, rfl⟩
  refine ⟨_, _, Hashes.sha512_256 (signingPreimage t), h1, h2, ?_, ?_, ?_, ?_, rfl⟩
  · rw [initialHash_iff, hsb.preimage]; exact ⟨hsb.encodable.2 hb, rfl⟩
  · rw [initialHash_eq t hb, initialHash_iff, hsb.preimage]; exact ⟨hsb.encodable.2 hb, rfl⟩
  · have hvo' : o.verify (Hashes.sha512_256 (signingPreimage t)) 4 = .ok n := by rw [ha] at hvo; exact hvo
    show (o.verify (Hashes.sha512_256 (signingPreimage t)) 4 >>= fun next => _) = _
    rw [hvo', Outcome.ok_bind]
    have : (Spending.single { q with signature := signatureBytes (presignDigest n 5 q.fee q.nonce) k }).verify n 5 =
        .ok (postsignDigest (presignDigest n 5 q.fee q.nonce) (signatureBytes (presignDigest n 5 q.fee q.nonce) k)) := by
      refine (single_verify_iff _ n 5 _).2 ⟨Secp.pub k, recovers_signature _ _, ?_, rfl⟩
      simp only [hm]; exact hsig
    show (Spending.verify (Spending.single _) n 5 >>= fun _ => _) = _
    unfold Signer.sponsorSig
    simp only [Spending.fee, Spending.nonce]
    rw [this]; rfl
  · rw [verifyOrigin_iff]
    refine ⟨hsb.encodable.2 hb, ?_⟩
    rw [hsb.preimage]
    rw [ha] at hvo; exact hvo

/-- **C53** From start to end: a sponsored transaction created for the key of `ko`, signed with
`ko`, then sponsored and signed with `ks`, verifies. -/
theorem C53_end_to_end [Secp.Lawful] (t : Transaction) (p : Spending) (ko ks : Secp.SK)
    (fee nonce fee' nonce' : UInt64) (mode mode' : C32.Mode) (c q : SingleSig)
    (ha : t.auth = .sponsored (.single c) p) (hb : EncodableBody t)
    (hc : (SingleSig.new (Secp.pub ko) fee nonce mode : Outcome TxError SingleSig) = .ok c)
    (hq : (SingleSig.new (Secp.pub ks) fee' nonce' mode' : Outcome TxError SingleSig) = .ok q) :
    ∃ t1 s s' h, t.sign ko = .ok t1 ∧ Signer.newSponsor t1 (.single q) = .ok s ∧ s.signSponsor ks = .ok s' ∧
      s'.tx.initialHash = .ok h ∧ s'.tx.auth.verify h = .ok () := by
  obtain ⟨s1, _, h1, h2, _⟩ := C47_sign_then_verify t (Secp.pub ko) fee nonce mode c ko hc (by rw [ha]; rfl) hb
  have hsp := (C48_only_signature t s1.tx ko h1).2.2.2.2.2.2.1
  rw [ha] at hsp
  cases hs : s1.tx.auth with
  | standard o => rw [hs] at hsp; cases hsp
  | sponsored o p' =>
    obtain ⟨s, s', h, g1, g2, g3, _, g4, _⟩ := C53_sponsored_flow s1.tx o p' _ ks fee' nonce' mode' q hs (h2 rfl) hq
    exact ⟨s1.tx, s, s', h, h1, g1, g2, g3, g4⟩

/-! ## C54 -/

/-- **C54** `Auth::verify` accepts every standard authorization. -/
theorem C54_standard_always_ok (o : Spending) (h : Arr 32) : (Auth.standard o).verify h = .ok () := rfl

/-- **C54** So it accepts transactions whose origin does not verify: any single-signature
transaction signed with a key of another hash. -/
theorem C54_accepts_wrong_signature [Secp.Lawful] (t : Transaction) (P : Secp.PK) (fee nonce : UInt64)
    (mode : C32.Mode) (c : SingleSig) (k : Secp.SK)
    (hnew : (SingleSig.new P fee nonce mode : Outcome TxError SingleSig) = .ok c)
    (hc : t.auth = .standard (.single c)) (hb : EncodableBody t)
    (hne : keySigner mode (Secp.pub k) ≠ keySigner mode P) :
    ∃ t', t.sign k = .ok t' ∧ (∀ h, t'.auth.verify h = .ok ()) ∧ ∀ n, t'.verifyOrigin ≠ .ok n := by
  obtain ⟨s, _, h1, _, h3, _⟩ := C47_sign_then_verify t P fee nonce mode c k hnew (by rw [hc]; rfl) hb
  obtain ⟨_, _, _, _, he⟩ := h3 hne
  refine ⟨s.tx, h1, fun h => ?_, fun n hn => by rw [he] at hn; cases hn⟩
  obtain ⟨_, _, _, ht⟩ := (sign_iff _ _ _).1 h1
  rw [ht, hc]; rfl

/-- **C54** For sponsored authorizations `Auth::verify` checks both parts, in a chain. -/
theorem C54_sponsored_iff (o p : Spending) (h : Arr 32) :
    (Auth.sponsored o p).verify h = .ok () ↔ ∃ n n', o.verify h 4 = .ok n ∧ p.verify n 5 = .ok n' := by
  show ((o.verify h 4 >>= fun n => p.verify n 5 >>= fun _ => pure ()) = Outcome.ok ()) ↔ _
  simp only [Outcome.bind_eq_ok, Outcome.pure_def]
  constructor
  · rintro ⟨n, h1, n', h2, _⟩; exact ⟨n, n', h1, h2⟩
  · rintro ⟨n, n', h1, h2⟩; exact ⟨n, h1, n', h2, trivial⟩

/-! ## C53, continued -/

/-- **C53** Likewise for a sponsor of several keys that all sign (the signer has no way to append a
sponsor's key without signing). -/
theorem C53_multisig_sponsor [Secp.Lawful] (t : Transaction) (o p : Spending) (n : Arr 32) (ks : List Secp.SK)
    (fee nonce : UInt64) (m : UInt8) (mode : C32.Mode) (q : MultiSig) (ha : t.auth = .sponsored o p)
    (hv : t.verifyOrigin = .ok n)
    (hnew : (MultiSig.new (ks.map Secp.pub) fee nonce m mode : Outcome TxError MultiSig) = .ok q)
    (hm : ks.length = m.toNat) :
    ∃ s s' h, Signer.newSponsor t (.multi q) = .ok s ∧ signSponsors s ks = .ok s' ∧
      s'.tx.initialHash = .ok h ∧ s'.tx.auth.verify h = .ok () ∧ s'.tx.verifyOrigin = .ok n := by
  obtain ⟨⟨h175, hlen⟩, hsig, hce⟩ := (multi_new_iff _ fee nonce m mode q).1 hnew
  have hfields : q.fields = [] := by rw [hce]
  have hreq : q.required = m := by rw [hce]
  have hmo : q.mode = mode := by rw [hce]
  have hmode : q.mode = .p2sh ∨ q.mode = .p2wsh := by
    rw [hmo]; cases mode <;> first | exact .inl rfl | exact .inr rfl | cases hsig
  have hv2 : Transaction.verifyOrigin { t with auth := .sponsored o (.multi q) } = .ok n := by
    rw [C53_origin_independent_of_sponsor t o p _ ha, hv]
  have h1 := (newSponsor_iff t (.multi q) _).2 ⟨o, p, n, ha, hv2, rfl⟩
  obtain ⟨s', gs, h2, h3, h4, h5⟩ := signSponsors_ok ks
    ⟨{ t with auth := .sponsored o (.multi q) }, n, true, true, true⟩ o q rfl hmode
    (fun _ => by rw [hfields, hreq, List.countP_nil]; omega)
  obtain ⟨hb, hvo⟩ := (verifyOrigin_iff t n).1 hv
  have hsb : SameBody s'.tx t := by
    rw [h3]; exact ⟨by rw [ha]; rfl, rfl, rfl, rfl, rfl, rfl, rfl⟩
  rw [ha] at hvo
  refine ⟨_, s', Hashes.sha512_256 (signingPreimage t), h1, h2, ?_, ?_, ?_⟩
  · rw [initialHash_iff, hsb.preimage]; exact ⟨hsb.encodable.2 hb, rfl⟩
  · rw [h3, C54_sponsored_iff]
    refine ⟨n, s'.hash, hvo, ?_⟩
    show MultiSig.verify _ _ 5 = _
    rw [multi_verify_iff]
    simp only [hfields, List.nil_append]
    exact ⟨_, h4, by rw [h5, hreq]; omega, by rw [h5]; omega, ⟨by rw [hreq]; exact h175, hlen⟩,
      by rw [hreq, hmo]; exact hsig⟩
  · rw [verifyOrigin_iff]
    refine ⟨hsb.encodable.2 hb, ?_⟩
    rw [hsb.preimage, h3]
    exact hvo

/-- **C53** A sponsor's signature made with a key of another hash is refused by `Auth::verify`. -/
theorem C53_wrong_sponsor_key [Secp.Lawful] (t : Transaction) (o : Spending) (n : Arr 32) (k : Secp.SK)
    (q : SingleSig) (got : Arr 20) (ha : t.auth = .sponsored o (.single q)) (hv : t.verifyOrigin = .ok n)
    (hq : q.signature = signatureBytes (presignDigest n 5 q.fee q.nonce) k)
    (hg : keySigner q.mode (Secp.pub k) = some got) (hne : got ≠ q.signer) :
    t.auth.verify (Hashes.sha512_256 (signingPreimage t)) =
      .err (.badSigner (Hex.bytesToHex q.signer.1) (Hex.bytesToHex got.1)) := by
  obtain ⟨hb, hvo⟩ := (verifyOrigin_iff t n).1 hv
  rw [ha] at hvo ⊢
  show (o.verify (Hashes.sha512_256 (signingPreimage t)) 4 >>= fun next => _) = _
  rw [show o.verify (Hashes.sha512_256 (signingPreimage t)) 4 = .ok n from hvo, Outcome.ok_bind]
  show (SingleSig.verify q n 5 >>= fun _ => _) = _
  rw [single_verify_recovered q n 5 (Secp.pub k) got (by rw [hq]; exact recovers_signature _ _) hg, if_neg hne]
  rfl

/-- **C53** `new_sponser` refuses a standard transaction, and one whose origin does not verify. -/
theorem C53_new_sponsor_refuses (t : Transaction) (c : Spending) :
    (∀ o, t.auth = .standard o → ∀ s, Signer.newSponsor t c ≠ .ok s) ∧
    ((∀ n, t.verifyOrigin ≠ .ok n) → ∀ s, Signer.newSponsor t c ≠ .ok s) := by
  refine ⟨fun o ha s hs => ?_, fun hn s hs => ?_⟩
  · obtain ⟨_, _, _, ha', _⟩ := (newSponsor_iff t c s).1 hs
    rw [ha] at ha'; cases ha'
  · obtain ⟨o, p, n, ha, hv, _⟩ := (newSponsor_iff t c s).1 hs
    rw [C53_origin_independent_of_sponsor t o p c ha] at hv
    exact hn n hv

/-! ## C55 -/

/-- **C55** Exactly when creating a multi-sig condition panics; it never fails otherwise. -/
theorem C55_new_panics_iff (pks : List Secp.PK) (fee nonce : UInt64) (m : UInt8) (mode : C32.Mode)
    (hmode : mode = .p2sh ∨ mode = .p2wsh) :
    ((MultiSig.new pks fee nonce m mode : Outcome TxError MultiSig) = .panic ↔
      175 < m.toNat ∨ 175 < pks.length % 256) ∧
    ((∃ c, (MultiSig.new pks fee nonce m mode : Outcome TxError MultiSig) = .ok c) ↔
      m.toNat ≤ 175 ∧ pks.length % 256 ≤ 175) := by
  have hex : ∃ s, scriptSigner mode m.toNat pks = some s := by rcases hmode with rfl | rfl <;> exact ⟨_, rfl⟩
  obtain ⟨s, hs⟩ := hex
  have h2 : (∃ c, (MultiSig.new pks fee nonce m mode : Outcome TxError MultiSig) = .ok c) ↔
      m.toNat ≤ 175 ∧ pks.length % 256 ≤ 175 := by
    simp only [multi_new_iff]
    constructor
    · rintro ⟨c, h, _⟩; exact h
    · intro h; exact ⟨⟨mode, fee, nonce, s, [], m⟩, h, hs, rfl⟩
  refine ⟨?_, h2⟩
  have hcases : (∃ c, (MultiSig.new pks fee nonce m mode : Outcome TxError MultiSig) = .ok c) ∨
      (MultiSig.new pks fee nonce m mode : Outcome TxError MultiSig) = .panic := by
    rcases signerHash_cases (ε := TxError) mode m pks with ⟨s, h⟩ | h
    · refine .inl ⟨⟨mode, fee, nonce, s, [], m⟩, ?_⟩
      show (signerHash mode m pks >>= fun s => _) = _
      rw [h]; rfl
    · refine .inr ?_
      show (signerHash mode m pks >>= fun s => _) = _
      rw [h]; rfl
  constructor
  · intro h
    by_contra hn
    obtain ⟨c, hc⟩ := h2.2 ⟨by omega, by omega⟩
    rw [h] at hc; cases hc
  · intro h
    rcases hcases with hc | hc
    · have := h2.1 hc; omega
    · exact hc

/-- **C55** Verification panics on 256 or more recoverable signatures. -/
theorem C55_verify_panics (c : MultiSig) (h n : Arr 32) (typ : UInt8) (ks : List Secp.PK)
    (hr : Recovers typ c.fee c.nonce h c.fields ks n) (hc : 256 ≤ c.fields.countP isSignature) :
    c.verify h typ = .panic := by
  rw [multi_verify_eq, verifyFields_panic hr [] 0 (by simpa using hc)]; rfl

/-- **C55** Such conditions arise: with the check for too many signatures switched off, 256 or more
participants all signing (not between 176 and 255 modulo 256) end in a panic of the verification. -/
theorem C55_flow_panics [Secp.Lawful] (t : Transaction) (ps : List Participant) (fee nonce : UInt64) (m : UInt8)
    (mode : C32.Mode) (c : MultiSig)
    (hnew : (MultiSig.new (ps.map Participant.key) fee nonce m mode : Outcome TxError MultiSig) = .ok c)
    (hc : t.auth.origin = .multi c) (hb : EncodableBody t) (hn : 256 ≤ ps.countP Participant.isSigner) :
    ∃ s, (Signer.new t >>= fun s => walk { s with verifyOversign := false } ps) = .ok s ∧
      s.tx.verifyOrigin = .panic := by
  obtain ⟨_, hsig, hce⟩ := (multi_new_iff _ fee nonce m mode c).1 hnew
  have hfields : c.fields = [] := by rw [hce]
  have hmo : c.mode = mode := by rw [hce]
  have hmode : c.mode = .p2sh ∨ c.mode = .p2wsh := by
    rw [hmo]; cases mode <;> first | exact .inl rfl | exact .inr rfl | cases hsig
  obtain ⟨s', gs, h1, h2, h3, h4, _⟩ := walk_ok ps
    ⟨t, Hashes.sha512_256 (signingPreimage t), false, false, true⟩ c hc hmode (by simp) (fun h => by cases h)
  refine ⟨s', by rw [(signer_new_iff t _).2 ⟨hb, rfl⟩]; exact h1, ?_⟩
  have hsb : SameBody s'.tx t := by
    rw [h2]; exact sameBody_setOrigin t _ (by rw [hc]; rfl)
  rw [verifyOrigin_eq _ (hsb.encodable.2 hb), hsb.preimage, h2]
  show (t.auth.setOrigin _).origin.verify _ 4 = _
  rw [origin_setOrigin]
  refine C55_verify_panics _ _ _ 4 _ (by simpa only [hfields, List.nil_append] using h3) ?_
  have e1 : (gs.map isSignature).countP id = gs.countP isSignature := by rw [List.countP_map]; rfl
  have e2 : (ps.map Participant.isSigner).countP id = ps.countP Participant.isSigner := by
    rw [List.countP_map]; rfl
  simp only [hfields, List.nil_append]
  rw [← e1, h4, e2]; exact hn

/-- **C55** Otherwise verification does not panic. -/
theorem C55_verify_no_panic (c : MultiSig) (h : Arr 32) (typ : UInt8) (hmode : c.mode = .p2sh ∨ c.mode = .p2wsh)
    (hm : c.required.toNat ≤ 175) (hl : c.fields.length % 256 ≤ 175) (hc : c.fields.countP isSignature < 256) :
    c.verify h typ ≠ .panic := by
  rw [multi_verify_eq]
  rcases verifyFields_err typ c.fee c.nonce c.fields [] h 0 (by simpa using hc) with ⟨r, hr⟩ | ⟨e, he⟩
  · rw [hr, Outcome.ok_bind]
    obtain ⟨ks, h', hrec, _, rfl⟩ := (verifyFields_iff _ _ _ _ _ _ _ _).1 hr
    simp only [List.nil_append]
    split
    · simp
    · have hex : ∃ s, scriptSigner c.mode c.required.toNat ks = some s := by
        rcases hmode with hm | hm <;> (rw [hm]; exact ⟨_, rfl⟩)
      obtain ⟨s, hs⟩ := hex
      rw [(signerHash_iff _ _ _ _).2 ⟨hm, by rw [recovers_length hrec]; exact hl, hs⟩, Outcome.ok_bind]
      split <;> simp
  · rw [he]; simp

end

/-! ## The hypotheses are satisfiable

With the real hash functions and the toy signature scheme. -/

section
attribute [local instance] Concrete.realHashes Concrete.toySecp
local instance : Secp.Lawful := Concrete.toyLawful

theorem exSingle_new : (SingleSig.new (Secp.pub (exKey 1)) 180 5 .p2pkh : Outcome TxError SingleSig) = .ok exSingle :=
  (single_new_iff _ _ _ _ _).2 ⟨rfl, rfl, rfl, rfl, rfl⟩

/-- C47: the key of the condition verifies, another does not. -/
example : ∃ t', exTx.sign (exKey 1) = .ok t' ∧ ∃ n, t'.verifyOrigin = .ok n := by
  obtain ⟨s, _, h1, h2, _⟩ := C47_sign_then_verify exTx _ 180 5 .p2pkh exSingle (exKey 1) exSingle_new rfl
    (wf_encodable_tx _ exTx_wf).2
  exact ⟨_, h1, _, h2 rfl⟩
theorem exKeys_differ : keySigner .p2pkh (Secp.pub (exKey 2)) ≠ keySigner .p2pkh (Secp.pub (exKey 1)) := by
  decide +kernel
example : ∃ t', exTx.sign (exKey 2) = .ok t' ∧ ∃ a b, t'.verifyOrigin = .err (.badSigner a b) := by
  obtain ⟨s, _, h1, _, h2, _⟩ := C47_sign_then_verify exTx _ 180 5 .p2pkh exSingle (exKey 2) exSingle_new rfl
    (wf_encodable_tx _ exTx_wf).2
  obtain ⟨_, _, _, _, h⟩ := h2 exKeys_differ
  exact ⟨_, h1, _, _, h⟩

/-- A sponsored transfer. -/
def exTx4 : Transaction := { exTx with auth := .sponsored (.single exSingle) (.single exSingle) }
def exSponsor : SingleSig :=
  ⟨.p2wpkh, 7, 9, hash160Of (0x00 :: 0x14 :: (hash160Of (Secp.serialize (Secp.pub (exKey 4))).1).1), noSignature⟩
theorem exSponsor_new : (SingleSig.new (Secp.pub (exKey 4)) 7 9 .p2wpkh : Outcome TxError SingleSig) = .ok exSponsor :=
  (single_new_iff _ _ _ _ _).2 ⟨rfl, rfl, rfl, rfl, rfl⟩

/-- C49: two different transactions (of different sponsors) that verify with the same signature. -/
example : ∃ t t' c n, t.auth.origin = .single c ∧ t'.auth.origin = .single c ∧
    WellFormedTransaction t ∧ WellFormedTransaction t' ∧
    t.verifyOrigin = .ok n ∧ t'.verifyOrigin = .ok n ∧ t ≠ t' := by
  obtain ⟨s, _, h1, h2, _⟩ := C47_sign_then_verify exTx4 _ 180 5 .p2pkh exSingle (exKey 1) exSingle_new rfl
    (wf_encodable_tx _ exTx_wf).2
  obtain ⟨_, _, _, e⟩ := (sign_iff _ _ _).1 h1
  have hv := h2 rfl
  rw [e] at hv
  generalize signatureBytes _ _ = sig at hv
  refine ⟨_, _, { exSingle with signature := sig }, _, ?_, ?_, ?_, ?_, hv,
    (C53_origin_independent_of_sponsor _ _ _ (.single exSponsor) rfl).trans hv, ?_⟩
  · rfl
  · rfl
  · exact ⟨⟨.inl rfl, .inl rfl⟩, exTx_wf.2.1, exConditions_wf, exTransfer_wf⟩
  · exact ⟨⟨.inl rfl, .inr rfl⟩, exTx_wf.2.1, exConditions_wf, exTransfer_wf⟩
  · intro he
    have h3 : (Outcome.ok C32.Mode.p2pkh : Outcome TxError C32.Mode) = .ok .p2wpkh :=
      congrArg (fun t => (t.auth.sponsor >>= fun p => .ok p.mode)) he
    cases h3

/-- Two of three. -/
def exParts : List Participant := [.signs (exKey 1), .absent (exKey 2), .signs (exKey 3)]
def exTwoOfThree : MultiSig :=
  ⟨.p2sh, 180, 5, hash160Of (multisigScriptSpec 2 (exParts.map Participant.key)), [], 2⟩
def exTx3 : Transaction := { exTx with auth := .standard (.multi exTwoOfThree) }
theorem exTwoOfThree_new :
    (MultiSig.new (exParts.map Participant.key) 180 5 2 .p2sh : Outcome TxError MultiSig) = .ok exTwoOfThree :=
  (multi_new_iff _ _ _ _ _ _).2 ⟨⟨by decide, by decide⟩, rfl, rfl⟩

/-- C50. -/
example : ∃ s, (Signer.new exTx3 >>= fun s => walk s exParts) = .ok s ∧ s.tx.verifyOrigin = .ok s.hash := by
  obtain ⟨s, h1, h2, _⟩ := C50_multisig_flow exTx3 exParts 180 5 2 .p2sh exTwoOfThree true exTwoOfThree_new rfl
    (wf_encodable_tx _ exTx_wf).2 (by decide) (by decide) (fun _ => by decide)
  refine ⟨s, ?_, h2⟩
  rw [(signer_new_iff exTx3 _).2 ⟨(wf_encodable_tx _ exTx_wf).2, rfl⟩] at h1 ⊢
  exact h1
example : ∃ c, (MultiSig.new (exParts.map Participant.key) 180 5 1 .p2wsh : Outcome TxError MultiSig) = .ok c ∧
    (1 : UInt8).toNat < exParts.countP Participant.isSigner :=
  ((C55_new_panics_iff _ _ _ 1 .p2wsh (.inr rfl)).2.2 ⟨by decide, by decide⟩).imp fun _ h => ⟨h, by decide⟩

/-- C51: one key and one of two required signatures, recoverable. -/
example : ∃ n ks, Recovers 4 180 5 (zeros 32) [.pk (exKey 1), .msg (signatureBytes (presignDigest (zeros 32) 4 180 5) (exKey 2))]
    ks n ∧ ks = [exKey 1, exKey 2] :=
  ⟨_, _, .pk _ _ _ _ _ (.msg _ _ _ _ _ _ (recovers_signature _ _) (.nil _)), rfl⟩
example : MultiSig.verify ⟨.p2sh, 180, 5, zeros 20,
    [.pk (exKey 1), .msg (signatureBytes (presignDigest (zeros 32) 4 180 5) (exKey 2))], 2⟩ (zeros 32) 4 =
    .err (.badSignatureCount 2 1) :=
  C51_bad_signature_count _ _ _ _ _ (.pk _ _ _ _ _ (.msg _ _ _ _ _ _ (recovers_signature _ _) (.nil _))) (by decide)

/-- C52: an unsigned transaction is within the required numbers, and a sponsor that signs. -/
example : WithinRequired exTx3.auth := ⟨by decide, fun _ h => by cases h⟩
example : ∃ s, Signer.new exTx3 = .ok s := ⟨_, (signer_new_iff _ _).2 ⟨(wf_encodable_tx _ exTx_wf).2, rfl⟩⟩

/-- C52, C53: from start to end, then the origin cannot sign. -/
example : ∃ s' : Signer, s'.signOrigin (exKey 1) = .err .originPostSponsorSign ∧
    ∃ h, s'.tx.initialHash = .ok h ∧ s'.tx.auth.verify h = .ok () := by
  obtain ⟨t1, s, s', h, _, h2, h3, h4, h5⟩ := C53_end_to_end exTx4 _ (exKey 1) (exKey 4) 180 5 7 9 .p2pkh .p2wpkh exSingle exSponsor rfl
    (wf_encodable_tx _ exTx_wf).2 exSingle_new exSponsor_new
  obtain ⟨_, _, _, _, _, e⟩ := (newSponsor_iff _ _ _).1 h2
  exact ⟨s', (C52_post_sponsor_errors s s' _ (by rw [e]) h3 _ (exKey 1)).1, h, h4, h5⟩
example : ∃ q, (MultiSig.new ([exKey 5, exKey 6].map Secp.pub) 7 9 2 .p2wsh : Outcome TxError MultiSig) = .ok q :=
  (C55_new_panics_iff _ _ _ 2 .p2wsh (.inr rfl)).2.2 ⟨by decide, by decide⟩
example : keySigner exSponsor.mode (Secp.pub (exKey 5)) ≠ some exSponsor.signer := by decide +kernel

/-- C54. -/
example : ∃ t', exTx.sign (exKey 2) = .ok t' ∧ (∀ h, t'.auth.verify h = .ok ()) ∧ ∀ n, t'.verifyOrigin ≠ .ok n :=
  C54_accepts_wrong_signature exTx _ 180 5 .p2pkh exSingle (exKey 2) exSingle_new rfl (wf_encodable_tx _ exTx_wf).2
    exKeys_differ

/-- C55: 176 keys panic, 256 keys do not; and 256 participants all signing. -/
example : (MultiSig.new (List.replicate 176 (exKey 1)) 0 0 1 .p2sh : Outcome TxError MultiSig) = .panic :=
  ((C55_new_panics_iff _ 0 0 1 .p2sh (.inl rfl)).1).2 (.inr (by rw [List.length_replicate]; omega))
example : ∃ c, (MultiSig.new ((List.replicate 256 (Participant.signs (exKey 1))).map Participant.key) 0 0 1 .p2sh :
    Outcome TxError MultiSig) = .ok c :=
  ((C55_new_panics_iff _ 0 0 1 .p2sh (.inl rfl)).2).2 ⟨by decide, by rw [List.length_map, List.length_replicate]; omega⟩
example : 256 ≤ (List.replicate 256 (Participant.signs (exKey 1))).countP Participant.isSigner := by
  rw [List.countP_replicate]; decide

/-! ## More cases -/

/-- The signed transaction with one origin, with two different sponsors. -/
theorem exTwoSponsors : ∃ (c : SingleSig) (n : Arr 32),
    (∀ p : SingleSig, p.mode = .p2pkh ∨ p.mode = .p2wpkh →
      WellFormedTransaction { exTx with auth := .sponsored (.single c) (.single p) }) ∧
    ∀ p, Transaction.verifyOrigin { exTx with auth := .sponsored (.single c) p } = .ok n := by
  obtain ⟨s, _, h1, h2, _⟩ := C47_sign_then_verify exTx4 _ 180 5 .p2pkh exSingle (exKey 1) exSingle_new rfl
    (wf_encodable_tx _ exTx_wf).2
  obtain ⟨_, _, _, e⟩ := (sign_iff _ _ _).1 h1
  have hv := h2 rfl
  rw [e] at hv
  generalize signatureBytes _ _ = sig at hv
  refine ⟨{ exSingle with signature := sig }, s.hash,
    fun p hp => ⟨⟨.inl rfl, hp⟩, exTx_wf.2.1, exConditions_wf, exTransfer_wf⟩, fun p => ?_⟩
  exact (C53_origin_independent_of_sponsor { exTx with auth := .sponsored (.single { exSingle with signature := sig }) (.single exSingle) } _ _ p rfl).trans hv

/-- C49: they agree in what is signed, or there is a collision. -/
example : ∃ t t' c n, t ≠ t' ∧ t.auth.origin = .single c ∧ t'.auth.origin = .single c ∧ t.verifyOrigin = .ok n ∧
    t'.verifyOrigin = .ok n ∧
    ((signedContent t = signedContent t' ∧ c.fee = c.fee ∧ c.nonce = c.nonce) ∨ signingPreimage t ≠ signingPreimage t' ∨
      ∃ x x' : Bytes, x ≠ x') := by
  obtain ⟨c, n, hw, hv⟩ := exTwoSponsors
  refine ⟨_, _, c, n, ?_, rfl, rfl, hv (.single exSingle), hv (.single exSponsor), ?_⟩
  · intro he
    have h3 : (Outcome.ok C32.Mode.p2pkh : Outcome TxError C32.Mode) = .ok .p2wpkh :=
      congrArg (fun t => (t.auth.sponsor >>= fun p => .ok p.mode)) he
    cases h3
  · rcases C49_single_binding _ _ c c n n (hw exSingle (.inl rfl)) (hw exSponsor (.inr rfl)) rfl rfl rfl rfl
      (hv _) (hv _) with h | h | h | h
    · exact .inl h
    · exact .inr (.inl h.1)
    · obtain ⟨x, x', _, _, h, _⟩ := h; exact .inr (.inr ⟨x, x', h⟩)
    · obtain ⟨m, m', _, _, _, _, h, _⟩ := h
      exact .inr (.inr ⟨m.1, m'.1, fun e => h (Subtype.ext e)⟩)

/-- C50: three participants, two of them signing, where one signature is required. -/
example : ∃ t : Transaction, (Signer.new t >>= fun s => walk s exParts) = .err .originOversign := by
  obtain ⟨c, h⟩ := (C55_new_panics_iff (exParts.map Participant.key) 180 5 1 .p2wsh (.inr rfl)).2.2 ⟨by decide, by decide⟩
  exact ⟨{ exTx with auth := .standard (.multi c) },
    C50_too_many_signers _ exParts 180 5 1 .p2wsh c h rfl (wf_encodable_tx _ exTx_wf).2 (by decide)⟩

/-- C51: two required signatures and one given; and a transaction that verifies has its two. -/
example (h : Arr 32) : ∃ e, MultiSig.verify ⟨.p2sh, 180, 5, zeros 20, [.msg noSignature], 2⟩ h 4 = .err e := by
  rcases C51_too_few ⟨.p2sh, 180, 5, zeros 20, [.msg noSignature], 2⟩ h 4 (by decide) with h | ⟨e, h⟩
  · exact ⟨_, h⟩
  · exact ⟨_, h⟩
/-- The transaction of two of three, signed. -/
theorem exSignedTwo : ∃ (s : Signer) (c : MultiSig), s.tx.auth.origin = .multi c ∧ s.tx.verifyOrigin = .ok s.hash ∧
    c.fields.map isSignature = [true, false, true] := by
  obtain ⟨s, h1, h2, h3, _⟩ := C50_multisig_flow exTx3 exParts 180 5 2 .p2sh exTwoOfThree true exTwoOfThree_new rfl
    (wf_encodable_tx _ exTx_wf).2 (by decide) (by decide) (fun _ => by decide)
  cases ho : s.tx.auth.origin with
  | single c => rw [ho] at h3; cases h3
  | multi c => rw [ho] at h3; exact ⟨s, c, ho, h2, h3⟩
example : ∃ (t : Transaction) (c : MultiSig), t.auth.origin = .multi c ∧ c.required.toNat ≤ c.fields.countP isSignature := by
  obtain ⟨s, c, h1, h2, _⟩ := exSignedTwo
  exact ⟨s.tx, c, h1, C51_verified_enough s.tx c s.hash h1 h2⟩

/-- C52: whatever is called on the signer of the transaction of two of three. -/
example (ops : List SignerOp) : ∃ s, Signer.new exTx3 = .ok s ∧ WithinRequired (after s ops).tx.auth ∧
    ∀ op : SignerOp, op.call (after s ops) ≠ .panic := by
  obtain ⟨s, h⟩ : ∃ s, Signer.new exTx3 = .ok s := ⟨_, (signer_new_iff _ _).2 ⟨(wf_encodable_tx _ exTx_wf).2, rfl⟩⟩
  have hw : WithinRequired exTx3.auth := ⟨by decide, fun _ h => by cases h⟩
  obtain ⟨-, e⟩ := (signer_new_iff _ _).1 h
  exact ⟨s, h, C52_from_new exTx3 s hw h ops, (C52_never_oversigns s (by rw [e]) (by rw [e]; exact hw) ops).2⟩

/-- C52, C53: a sponsored transaction from start to end; then the origin stays as it is. -/
example (ops : List SignerOp) : ∃ (t : Transaction) (s s' : Signer) (h : Arr 32),
    Signer.newSponsor t (.single exSponsor) = .ok s ∧ WithinRequired (after s ops).tx.auth ∧
    s.signSponsor (exKey 4) = .ok s' ∧ s'.tx.initialHash = .ok h ∧ s'.tx.auth.verify h = .ok () ∧
    (after s' ops).tx.auth.origin = t.auth.origin := by
  obtain ⟨c, n, hw, hv⟩ := exTwoSponsors
  obtain ⟨s, s', h, h1, h2, h3, _, h5, _, h7⟩ := C53_sponsored_flow
    { exTx with auth := .sponsored (.single c) (.single exSingle) } (.single c) (.single exSingle) n (exKey 4) 7 9 .p2wpkh
    exSponsor rfl (hv _) exSponsor_new
  have hle : signatureCount (.single c) ≤ 1 := by show (if _ then 0 else 1) ≤ 1; split <;> omega
  refine ⟨_, s, s', h, h1, C52_from_new_sponsor { exTx with auth := .sponsored (.single c) (.single exSingle) } _ s ⟨hle, fun p hp => ?_⟩ (by decide) h1 ops, h2, h3, h5, ?_⟩
  · cases hp; decide
  · obtain ⟨o, c', n', ha, _, e⟩ := (newSponsor_iff _ _ _).1 h1
    cases ha
    rw [C52_origin_frozen s s' (exKey 4) (by rw [e]) h2 ops, e]
    rfl

/-- C53: a sponsor of two keys; both sign. -/
example : ∃ (t : Transaction) (q : MultiSig) (s s' : Signer) (h : Arr 32),
    Signer.newSponsor t (.multi q) = .ok s ∧ signSponsors s [exKey 4, exKey 5] = .ok s' ∧
    s'.tx.initialHash = .ok h ∧ s'.tx.auth.verify h = .ok () := by
  obtain ⟨c, n, hw, hv⟩ := exTwoSponsors
  obtain ⟨q, hq⟩ := (C55_new_panics_iff ([exKey 4, exKey 5].map Secp.pub) 7 9 2 .p2wsh (.inr rfl)).2.2 ⟨by decide, by decide⟩
  obtain ⟨s, s', h, h1, h2, h3, h4, _⟩ := C53_multisig_sponsor
    { exTx with auth := .sponsored (.single c) (.single exSingle) } (.single c) (.single exSingle) n [exKey 4, exKey 5] 7 9 2
    .p2wsh q rfl (hv _) hq rfl
  exact ⟨_, q, s, s', h, h1, h2, h3, h4⟩

/-- C53: the sponsor of key 4, signed for with key 5. -/
example : ∃ (t : Transaction) (got : Arr 20), got ≠ exSponsor.signer ∧
    t.auth.verify (Hashes.sha512_256 (signingPreimage t)) =
      .err (.badSigner (Hex.bytesToHex exSponsor.signer.1) (Hex.bytesToHex got.1)) := by
  obtain ⟨c, n, hw, hv⟩ := exTwoSponsors
  have hne : hash160Of (0x00 :: 0x14 :: (hash160Of (Secp.serialize (Secp.pub (exKey 5))).1).1) ≠ exSponsor.signer := by
    decide +kernel
  exact ⟨_, _, hne, C53_wrong_sponsor_key { exTx with auth := .sponsored (.single c) (.single { exSponsor with
    signature := signatureBytes (presignDigest n 5 7 9) (exKey 5) }) } _ n (exKey 5)
    { exSponsor with signature := signatureBytes (presignDigest n 5 7 9) (exKey 5) } _ rfl (hv _) rfl rfl hne⟩

/-- C52: an origin that has the one signature it needs refuses another. -/
example (h : Arr 32) (k : Secp.SK) : Signer.signOrigin
    ⟨{ exTx with auth := .standard (.multi ⟨.p2sh, 180, 5, zeros 20, [.msg noSignature], 1⟩) }, h, false, true, true⟩ k =
      .err .originOversign :=
  (C52_full_refuses _ k rfl).1 rfl rfl

/-- C55: 256 participants, all of them signing. -/
example : ∃ (t : Transaction) (s : Signer), t.auth.origin.mode = .p2sh ∧ s.tx.verifyOrigin = .panic := by
  obtain ⟨ps, hp⟩ : ∃ ps : List Participant, ps = List.replicate 256 (.signs (exKey 1)) := ⟨_, rfl⟩
  obtain ⟨c, h⟩ := (C55_new_panics_iff (ps.map Participant.key) 180 5 2 .p2sh (.inl rfl)).2.2
    ⟨by decide, by rw [hp, List.length_map, List.length_replicate]; decide⟩
  obtain ⟨s, _, h2⟩ := C55_flow_panics { exTx with auth := .standard (.multi c) } ps 180 5 2 .p2sh c h rfl
    (wf_encodable_tx _ exTx_wf).2 (by rw [hp, List.countP_replicate]; decide)
  exact ⟨{ exTx with auth := .standard (.multi c) }, s, by
    obtain ⟨_, _, hc⟩ := (multi_new_iff _ _ _ _ _ _).1 h; rw [hc]; rfl, h2⟩
example (h : Arr 32) : MultiSig.verify ⟨.p2sh, 180, 5, zeros 20, [.msg noSignature], 1⟩ h 4 ≠ .panic :=
  C55_verify_no_panic _ h 4 (.inl rfl) (by decide) (by decide) (by decide)

end

end Stacks.Tx
