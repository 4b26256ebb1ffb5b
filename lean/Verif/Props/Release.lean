import Verif.Proofs.Release
import Verif.Props.Verify
import Verif.Props.Node

/-! # Builds without overflow checks (C107) -/

namespace Stacks.Spec
open Stacks.Tx

/-! ## C107: the codecs -/

/-- **C107** The base-32 and base-58 codecs never overflow: without overflow checks they give the same, on every
input. -/
theorem C107_codecs (data : Bytes) (s : Str) :
    Release.C32.c32Encode data = C32.c32Encode data ∧ Release.C32.c32Decode s = C32.c32Decode s ∧
    Release.B58.b58Encode data = B58.b58Encode data ∧ Release.B58.b58Decode s = B58.b58Decode s := by
  refine ⟨?_, ?_, ?_, ?_⟩
  · unfold Release.C32.c32Encode C32.c32Encode
    rw [Release.c32_encodeLoop_eq _ _ _ _ (by decide)]
  · unfold Release.C32.c32Decode C32.c32Decode
    split
    · rfl
    · congr 1; funext buff
      rw [Release.c32_decodeLoop_eq _ _ _ _ (by decide), Outcome.ok_bind]
  · unfold Release.B58.b58Encode B58.b58Encode
    rw [Release.b58_encodeLoop_eq _ _ _ rfl]
  · unfold Release.B58.b58Decode B58.b58Decode
    simp only [Release.b58_decodeLoop_eq]

section
variable [Secp] [Hashes]

/-! ## C107: making and verifying conditions -/

/-- **C107** Making a condition for several keys: any number of keys and any required number is accepted, and the two
numbers of the script are taken modulo 256. -/
theorem C107_new {ε : Type} (ks : List Secp.PK) (fee nonce : UInt64) (m : UInt8) (mode : C32.Mode) :
    (Release.newMultiSig ks fee nonce m mode : Outcome ε MultiSig) =
      match scriptSigner mode m.toNat ks with
      | some s => .ok ⟨mode, fee, nonce, s, [], m⟩
      | none => .panic := by
  have h := Release.signer_eq (ε := ε) mode m ks
  cases mode with
  | p2pkh => rfl
  | p2wpkh => rfl
  | p2sh => exact congrArg (· >>= fun s => Outcome.ok (MultiSig.mk .p2sh fee nonce s [] m)) h
  | p2wsh => exact congrArg (· >>= fun s => Outcome.ok (MultiSig.mk .p2wsh fee nonce s [] m)) h

/-- **C107** Verifying several signatures: the verdict, in every case. -/
theorem C107_verify (c : MultiSig) (h : Arr 32) (typ : UInt8) (o : Outcome TxError (Arr 32)) :
    Release.verifyMultiSig c h typ = o ↔ WrappingVerdict c h typ o := by
  refine ⟨?_, Release.wrapping_verdict⟩
  rintro rfl
  obtain ⟨o, ho⟩ := Release.wrapping_exists c h typ
  rw [Release.wrapping_verdict ho]; exact ho

theorem release_verify_agrees (c : Spending) (h : Arr 32) (typ : UInt8) (hp : c.verify h typ ≠ .panic) :
    Release.verify c h typ = c.verify h typ := by
  cases c with
  | single c => rfl
  | multi c =>
    exact Release.wrapping_verdict (Release.verdict_agrees ((C74_multi_exact c h typ _).1 rfl) hp)

omit [Hashes] in
theorem release_over_eq (flag : Bool) (c : Spending) :
    (flag && decide (c.reqSignatures ≤ Release.signatures c)) = true ↔
      flag = true ∧ requiredCount c ≤ signatureCount c % 65536 := by
  rw [Bool.and_eq_true, decide_eq_true_iff, Release.signatures_eq]
  refine and_congr_right fun _ => ?_
  rw [UInt16.le_iff_toNat_le, UInt16.toNat_ofNat']
  have : c.reqSignatures.toNat = requiredCount c := by
    cases c with
    | single c => rfl
    | multi c => exact UInt8.toNat_toUInt16 _
  rw [this]

/-- **C107** `sign_origin`, in every case: the number of signatures present is taken modulo 65536. -/
theorem C107_sign_origin (s : Signer) (k : Secp.SK) :
    Release.signOrigin s k =
      if s.verifyOverlap = true ∧ s.originSigned = true then .err .originPostSponsorSign
      else if s.verifyOversign = true ∧
          requiredCount (originOf s.tx.auth) ≤ signatureCount (originOf s.tx.auth) % 65536 then
        .err .originOversign
      else Signer.signOrigin { s with verifyOverlap := false, verifyOversign := false } k >>= fun r =>
        .ok { r with verifyOverlap := s.verifyOverlap, verifyOversign := s.verifyOversign } := by
  unfold Release.signOrigin
  simp only [release_over_eq, ← origin_eq]
  simp only [Bool.and_eq_true]
  split; · rfl
  split; · rfl
  unfold Signer.signOrigin
  simp only [Bool.false_and, Bool.false_eq_true, if_false, Outcome.pure_def, Outcome.ok_bind]
  cases s.tx.signNextOrigin s.hash k <;> rfl

theorem release_signOrigin_agrees (s : Signer) (k : Secp.SK) (hp : s.signOrigin k ≠ .panic) :
    Release.signOrigin s k = s.signOrigin k := by
  rw [C107_sign_origin, signOrigin_eq, signOrigin_eq, ← origin_eq]
  rw [signOrigin_eq] at hp
  simp only [Bool.false_eq_true, false_and, if_false]
  have := requiredCount_lt s.tx.auth.origin
  split; · rfl
  rename_i h1
  rw [if_neg h1] at hp
  by_cases h2 : s.verifyOversign = true ∧ 65536 ≤ signatureCount s.tx.auth.origin
  · rw [if_pos h2] at hp; exact absurd rfl hp
  · rw [if_neg h2]
    have e : (s.verifyOversign = true ∧ requiredCount s.tx.auth.origin ≤ signatureCount s.tx.auth.origin % 65536) ↔
        (s.verifyOversign = true ∧ requiredCount s.tx.auth.origin ≤ signatureCount s.tx.auth.origin) := by
      refine and_congr_right fun hv => ?_
      rw [Nat.mod_eq_of_lt (by simp only [hv, true_and] at h2; omega)]
    simp only [e]
    split; · rfl
    split <;> rfl

/-- **C107** `sign_sponsor`, in every case. -/
theorem C107_sign_sponsor (s : Signer) (k : Secp.SK) :
    (∀ o, s.tx.auth = .standard o → Release.signSponsor s k = .err .badSpendingConditionModification) ∧
    (∀ o c, s.tx.auth = .sponsored o c → Release.signSponsor s k =
      if s.verifyOversign = true ∧ requiredCount c ≤ signatureCount c % 65536 then .err .sponsorOversign
      else Signer.signSponsor { s with verifyOversign := false } k >>= fun r =>
        .ok { r with verifyOversign := s.verifyOversign }) := by
  obtain ⟨⟨v, ci, a, am, pm, pcs, pl⟩, h, os, vs, vl⟩ := s
  refine ⟨?_, ?_⟩
  · rintro o rfl; rfl
  · rintro o c rfl
    unfold Release.signSponsor
    show (Outcome.ok c >>= fun _ => _) = _
    rw [Outcome.ok_bind]
    simp only [release_over_eq]
    split; · rfl
    unfold Signer.signSponsor
    show _ = ((Outcome.ok c >>= fun _ => _) >>= _)
    rw [Outcome.ok_bind]
    simp only [Bool.false_eq_true, if_false, Outcome.pure_def, Outcome.ok_bind]
    generalize Transaction.signNextSponsor _ _ _ = x
    cases x <;> rfl

theorem release_signSponsor_agrees (s : Signer) (k : Secp.SK) (hp : s.signSponsor k ≠ .panic) :
    Release.signSponsor s k = s.signSponsor k := by
  rw [signSponsor_eq] at hp ⊢
  cases ha : s.tx.auth with
  | standard o => rw [(C107_sign_sponsor s k).1 o ha]
  | sponsored o c =>
    rw [(C107_sign_sponsor s k).2 o c ha, signSponsor_eq]
    simp only [ha, Bool.false_eq_true, false_and, if_false] at hp ⊢
    have := requiredCount_lt c
    by_cases h2 : s.verifyOversign = true ∧ 65536 ≤ signatureCount c
    · rw [if_pos h2] at hp; exact absurd rfl hp
    · rw [if_neg h2]
      have e : (s.verifyOversign = true ∧ requiredCount c ≤ signatureCount c % 65536) ↔
          (s.verifyOversign = true ∧ requiredCount c ≤ signatureCount c) := by
        refine and_congr_right fun hv => ?_
        rw [Nat.mod_eq_of_lt (by simp only [hv, true_and] at h2; omega)]
      simp only [e]
      split; · rfl
      split
      · rw [Outcome.ok_bind]; rfl
      · rfl

/-- **C107** Wherever the checked build does not panic, the build without overflow checks does the same: making
conditions, verifying, making a signer for the sponsor, and signing. -/
theorem C107_agrees {ε : Type} (ks : List Secp.PK) (fee nonce : UInt64) (m : UInt8) (mode : C32.Mode) (c : Spending)
    (h : Arr 32) (typ : UInt8) (a : Auth) (t : Transaction) (s : Signer) (k : Secp.SK) :
    ((MultiSig.new ks fee nonce m mode : Outcome ε MultiSig) ≠ .panic →
      (Release.newMultiSig ks fee nonce m mode : Outcome ε MultiSig) = MultiSig.new ks fee nonce m mode) ∧
    (c.verify h typ ≠ .panic → Release.verify c h typ = c.verify h typ) ∧
    (a.verify h ≠ .panic → Release.verifyAuth a h = a.verify h) ∧
    (t.verifyOrigin ≠ .panic → Release.verifyOrigin t = t.verifyOrigin) ∧
    (Signer.newSponsor t c ≠ .panic → Release.newSponsor t c = Signer.newSponsor t c) ∧
    (s.signOrigin k ≠ .panic → Release.signOrigin s k = s.signOrigin k) ∧
    (s.signSponsor k ≠ .panic → Release.signSponsor s k = s.signSponsor k) ∧
    (t.sign k ≠ .panic → Release.sign t k = t.sign k) := by
  have ho : ∀ t : Transaction, t.verifyOrigin ≠ .panic → Release.verifyOrigin t = t.verifyOrigin := by
    intro t hp
    unfold Release.verifyOrigin
    unfold Transaction.verifyOrigin at hp ⊢
    cases hi : t.initialHash with
    | ok x =>
      rw [hi] at hp
      rw [Outcome.ok_bind, Outcome.ok_bind]
      exact release_verify_agrees _ _ _ hp
    | err e => rfl
    | panic => rfl
  refine ⟨?_, release_verify_agrees c h typ, ?_, ho t, ?_, release_signOrigin_agrees s k,
    release_signSponsor_agrees s k, ?_⟩
  · intro hp
    rw [C107_new]
    cases hn : (MultiSig.new ks fee nonce m mode : Outcome ε MultiSig) with
    | ok c => obtain ⟨_, h2, h3⟩ := (multi_new_iff ks fee nonce m mode c).1 hn; rw [h2]; exact congrArg _ h3.symm
    | err e =>
      exfalso
      change (signerHash mode m ks >>= fun s => _) = _ at hn
      rcases signerHash_cases (ε := ε) mode m ks with ⟨s, h⟩ | h <;> (rw [h] at hn; cases hn)
    | panic => exact absurd hn hp
  · cases a with
    | standard o => intro _; rfl
    | sponsored o p =>
      intro hp
      change (o.verify h authTypeStandard >>= fun n => p.verify n authTypeSponsored >>= fun _ => .ok ()) ≠ _ at hp
      show (Release.verify o h authTypeStandard >>= fun n => Release.verify p n authTypeSponsored >>= fun _ => .ok ()) =
        (o.verify h authTypeStandard >>= fun n => p.verify n authTypeSponsored >>= fun _ => .ok ())
      cases h1 : o.verify h authTypeStandard with
      | ok n =>
        rw [release_verify_agrees o _ _ (by rw [h1]; nofun), h1]
        rw [h1, Outcome.ok_bind] at hp
        rw [Outcome.ok_bind, Outcome.ok_bind, release_verify_agrees p]
        intro he; rw [he] at hp; exact hp rfl
      | err e => rw [release_verify_agrees o _ _ (by rw [h1]; nofun), h1]; rfl
      | panic => rw [h1] at hp; exact absurd rfl hp
  · obtain ⟨v, ci, a, am, pm, pcs, pl⟩ := t
    cases a with
    | standard o => intro _; rfl
    | sponsored o p =>
      intro hp
      change (Transaction.verifyOrigin ⟨v, ci, .sponsored o c, am, pm, pcs, pl⟩ >>= fun x => _) ≠ _ at hp
      show (Release.verifyOrigin ⟨v, ci, .sponsored o c, am, pm, pcs, pl⟩ >>= fun x => _) =
        (Transaction.verifyOrigin ⟨v, ci, .sponsored o c, am, pm, pcs, pl⟩ >>= fun x => _)
      rw [ho _ (fun he => by rw [he] at hp; exact hp rfl)]
  · intro hp
    unfold Release.sign
    unfold Transaction.sign at hp ⊢
    cases hi : Signer.new t with
    | ok x =>
      rw [hi, Outcome.ok_bind] at hp
      rw [Outcome.ok_bind, Outcome.ok_bind, release_signOrigin_agrees]
      intro he; rw [he] at hp; exact hp rfl
    | err e => rfl
    | panic => rfl

/-! ## C107: what stays true -/

/-- **C107** A transaction of several keys that verifies carries at least the required number of signatures, made by
keys of the script that the signer is the hash of. -/
theorem C107_verified_enough (t : Transaction) (c : MultiSig) (n : Arr 32) (hc : originOf t.auth = .multi c)
    (hv : Release.verifyOrigin t = .ok n) :
    c.required.toNat ≤ c.fields.countP isSignature ∧
      ∃ ks, Recovers 4 c.fee c.nonce (Hashes.sha512_256 (signingPreimage t)) c.fields ks n ∧
        scriptSigner c.mode c.required.toNat ks = some c.signer := by
  unfold Release.verifyOrigin at hv
  rw [Outcome.bind_eq_ok] at hv
  obtain ⟨x, h1, h2⟩ := hv
  obtain ⟨_, rfl⟩ := (initialHash_iff t x).1 h1
  rw [origin_eq, hc] at h2
  cases (C107_verify c _ _ _).1 h2 with
  | valid hr hm hs => exact ⟨le_trans hm (Nat.mod_le _ _), _, hr, hs⟩

/-- **C107** From a signer that refuses too many signatures and has no more than it needs, every sequence of calls
leaves the same signer in both builds, and the next call has the same outcome. -/
theorem C107_signer (s : Signer) (hv : s.verifyOversign = true) (hw : WithinRequired s.tx.auth)
    (ops : List SignerOp) :
    releaseAfter s ops = after s ops ∧
      ∀ op : SignerOp, releaseCall op (releaseAfter s ops) = op.call (after s ops) := by
  have one : ∀ (op : SignerOp) (s : Signer), WithinRequired s.tx.auth → releaseCall op s = op.call s := by
    intro op s hw
    have hp := call_no_panic op s hw
    cases op with
    | signOrigin k => exact release_signOrigin_agrees s k hp
    | signSponsor k => exact release_signSponsor_agrees s k hp
    | appendOrigin k => rfl
  have all : ∀ (ops : List SignerOp) (s : Signer), s.verifyOversign = true → WithinRequired s.tx.auth →
      releaseAfter s ops = after s ops := by
    intro ops
    induction ops with
    | nil => intros; rfl
    | cons op ops ih =>
      intro s hv hw
      rw [releaseAfter, after, one op s hw]
      cases hs : op.call s with
      | ok s' => exact ih s' ((call_flags op s s' hs).1.trans hv) (call_within op s s' hv hw hs)
      | err e => exact ih s hv hw
      | panic => exact ih s hv hw
  have e := all ops s hv hw
  refine ⟨e, fun op => ?_⟩
  rw [e]
  exact one op _ (C52_never_oversigns s hv hw ops).1

theorem releaseWalk_eq (ps : List Participant) : ∀ s s' : Signer, walk s ps = .ok s' → releaseWalk s ps = .ok s' := by
  induction ps with
  | nil => intro s s' h; exact h
  | cons p ps ih =>
    intro s s' h
    cases p with
    | signs k =>
      rw [walk, Outcome.bind_eq_ok] at h
      obtain ⟨x, h1, h2⟩ := h
      rw [releaseWalk, release_signOrigin_agrees s k (by rw [h1]; nofun), h1, Outcome.ok_bind]
      exact ih _ _ h2
    | absent k =>
      rw [walk, Outcome.bind_eq_ok] at h
      obtain ⟨x, h1, h2⟩ := h
      rw [releaseWalk, h1, Outcome.ok_bind]
      exact ih _ _ h2

/-- **C107** Signing by several participants, start to end, with any number of keys and any required number: the
transaction verifies exactly when the number of those who signed, modulo 256, reaches the required number. Otherwise
verification reports that remainder. -/
theorem C107_flow [Secp.Lawful] (t : Transaction) (ps : List Participant) (fee nonce : UInt64) (m : UInt8)
    (mode : C32.Mode) (c : MultiSig) (oversign : Bool)
    (hnew : (Release.newMultiSig (ps.map Participant.key) fee nonce m mode : Outcome TxError MultiSig) = .ok c)
    (hc : originOf t.auth = .multi c) (hb : EncodableBody t)
    (hover : oversign = true → ps.countP Participant.isSigner ≤ m.toNat) :
    ∃ s, (Signer.new t >>= fun s => releaseWalk { s with verifyOversign := oversign } ps) = .ok s ∧
      Release.verifyOrigin s.tx =
        if m.toNat ≤ ps.countP Participant.isSigner % 256 then .ok s.hash
        else .err (.badSignatureCount m (UInt8.ofNat (ps.countP Participant.isSigner % 256))) := by
  rw [C107_new] at hnew
  cases hsig : scriptSigner mode m.toNat (ps.map Participant.key) with
  | none => rw [hsig] at hnew; cases hnew
  | some sg =>
    rw [hsig] at hnew
    obtain rfl := Outcome.ok.inj hnew
    have hmode : mode = .p2sh ∨ mode = .p2wsh := by
      cases mode <;> first | exact .inl rfl | exact .inr rfl | cases hsig
    rw [← origin_eq] at hc
    obtain ⟨s', gs, h1, h2, h3, h4, _⟩ := walk_ok ps
      ⟨t, Hashes.sha512_256 (signingPreimage t), false, oversign, true⟩ _ hc hmode (by simp)
      (fun he => by simpa using hover he)
    refine ⟨s', by rw [(signer_new_iff t _).2 ⟨hb, rfl⟩]; exact releaseWalk_eq _ _ _ h1, ?_⟩
    have hsb : SameBody s'.tx t := by
      rw [h2]; exact sameBody_setOrigin t _ (by rw [hc]; rfl)
    have e1 : (gs.map isSignature).countP id = gs.countP isSignature := by rw [List.countP_map]; rfl
    have e2 : (ps.map Participant.isSigner).countP id = ps.countP Participant.isSigner := by
      rw [List.countP_map]; rfl
    have hcount : gs.countP isSignature = ps.countP Participant.isSigner := by rw [← e1, ← e2, h4]
    unfold Release.verifyOrigin
    rw [(initialHash_iff s'.tx _).2 ⟨hsb.encodable.2 hb, rfl⟩, Outcome.ok_bind, hsb.preimage, h2]
    show Release.verify (t.auth.setOrigin _).origin _ 4 = _
    rw [origin_setOrigin]
    refine (C107_verify _ _ _ _).2 ?_
    simp only [List.nil_append] at *
    split
    · rename_i hle
      exact .valid h3 (by rw [← hcount] at hle; exact hle) hsig
    · rename_i hle
      rw [← hcount] at hle ⊢
      exact .tooFew h3 (Nat.lt_of_not_le hle)

/-! ## C107: what is lost -/

omit [Hashes] in
/-- **C107** The script of a required number from 176 on is not Bitcoin's. -/
theorem C107_script_large (m : UInt8) (keys : List Secp.PK) (hm : 176 ≤ m.toNat) :
    Release.multisigScript m keys ≠ bitcoinScript m.toNat keys := by
  rw [Release.multisigScript_eq]
  have h256 := m.toNat_lt
  intro h
  have hp : pushNumber m.toNat = [2, UInt8.ofNat m.toNat, 0] := by
    have e : ∀ n : Fin 256, 176 ≤ n.1 → pushNumber n.1 = [2, UInt8.ofNat n.1, 0] := by decide +kernel
    exact e ⟨m.toNat, h256⟩ hm
  have h1 : UInt8.ofNat (80 + m.toNat) :: (keys.flatMap pushKey ++ [UInt8.ofNat (80 + keys.length), 174]) =
      [2, UInt8.ofNat m.toNat, 0] ++ keys.flatMap pushKey ++ pushNumber keys.length ++ [0xae] := by
    rw [← hp]; exact h
  simp only [List.cons_append, List.append_assoc, List.nil_append] at h1
  obtain ⟨h2, h3⟩ := List.cons.inj h1
  have h2 := congrArg UInt8.toNat h2
  rw [UInt8.toNat_ofNat'] at h2
  have hm' : m.toNat = 178 := by
    have : (2 : UInt8).toNat = 2 := rfl
    omega
  rw [hm'] at h3
  cases keys with
  | nil => exact absurd (List.cons.inj h3).1 (show ¬ UInt8.ofNat (80 + 0) = UInt8.ofNat 178 by decide)
  | cons k ks => exact absurd (List.cons.inj h3).1 (show ¬ (0x21 : UInt8) = UInt8.ofNat 178 by decide)

/-- **C107** So what this build verifies with a required number from 176 on, which the checked build cannot make at
all, a node refuses, unless the two scripts of the keys collide. -/
theorem C107_large_refused (parse : Arr 33 → Option Secp.PK)
    (hp : ∀ k, parse (Secp.serialize k) = some k) (t : Transaction) (ht : WellFormedTransaction t) (c : MultiSig)
    (hc : originOf t.auth = .multi c) (hm : 176 ≤ c.required.toNat) (n : Arr 32)
    (hv : Release.verifyOrigin t = .ok n) (bs : Bytes) (he : t.encode = .ok bs) (hn : NodeAccepts parse bs) :
    ∃ ks, Recovers 4 c.fee c.nonce (Hashes.sha512_256 (signingPreimage t)) c.fields ks n ∧
      ScriptsCollide c.mode (multisigScriptSpec c.required.toNat ks) (bitcoinScript c.required.toNat ks) := by
  obtain ⟨_, ks, h4, h6⟩ := C107_verified_enough t c n hc hv
  rw [← origin_eq] at hc
  obtain ⟨ks', n', h1, _, h3⟩ := accepts_multi parse hp t ht c hc bs he hn
  obtain ⟨rfl, _⟩ := recovers_det h1 h4
  have hne := C107_script_large c.required ks' hm
  rw [Release.multisigScript_eq] at hne
  refine ⟨ks', h4, hne, ?_⟩
  revert h3 h6
  cases c.mode with
  | p2sh => intro h3 h6; exact Option.some.inj (h6.trans h3.symm)
  | p2wsh =>
    intro h3 h6
    by_cases hs : Hashes.sha256 (multisigScriptSpec c.required.toNat ks') =
        Hashes.sha256 (bitcoinScript c.required.toNat ks')
    · exact .inl hs
    · refine .inr ⟨fun he => ?_, Option.some.inj (h6.trans h3.symm)⟩
      exact hs (Subtype.ext (List.cons.inj (List.cons.inj he).2).2)
  | p2pkh => intro h3 h6; cases h6
  | p2wpkh => intro h3 h6; cases h6

/-- **C107** The refusal of more signatures than required lapses: at 65536 signatures another is accepted. -/
theorem C107_oversign (s : Signer) (k : Secp.SK) (c : MultiSig) (hc : originOf s.tx.auth = .multi c)
    (hmode : c.mode = .p2sh ∨ c.mode = .p2wsh) (ho : s.originSigned = false) (h0 : c.required ≠ 0)
    (hk : c.fields.countP isSignature = 65536) :
    ∃ s', Release.signOrigin s k = .ok s' ∧
      ∃ sig, s'.tx.auth = replaceOrigin s.tx.auth (.multi { c with fields := c.fields ++ [.msg sig] }) := by
  have h0 : 0 < c.required.toNat := by
    rcases Nat.eq_zero_or_pos c.required.toNat with h | h
    · exact absurd (UInt8.toNat_inj.1 h) h0
    · exact h
  have hm : ModeFits (originOf s.tx.auth) := by rw [hc]; exact hmode
  rw [C107_sign_origin, if_neg (by rw [ho]; simp), if_neg, signOrigin_eq]
  · simp only [Bool.false_eq_true, false_and, if_false]
    rw [origin_eq, if_pos hm]
    refine ⟨_, rfl, signatureBytes (presignDigest s.hash 4 c.fee c.nonce) k, ?_⟩
    unfold Signer.withOrigin Signer.originSig
    simp only [origin_eq, hc, setOrigin_eq]
    rfl
  · rw [hc]
    rintro ⟨_, h⟩
    change c.required.toNat ≤ c.fields.countP isSignature % 65536 at h
    rw [hk] at h
    omega

/-- **C107** 256 signatures, all good, count as none. -/
theorem C107_wrapped_count (c : MultiSig) (h n : Arr 32) (typ : UInt8) (ks : List Secp.PK)
    (hr : Recovers typ c.fee c.nonce h c.fields ks n) (hk : c.fields.countP isSignature = 256) (h0 : c.required ≠ 0) :
    Release.verifyMultiSig c h typ = .err (.badSignatureCount c.required 0) := by
  have : 0 < c.required.toNat := by
    rcases Nat.eq_zero_or_pos c.required.toNat with h | h
    · exact absurd (UInt8.toNat_inj.1 h) h0
    · exact h
  have := (C107_verify c h typ _).2 (.tooFew hr (by rw [hk]; exact this))
  rw [hk] at this
  exact this

end

/-! ## The hypotheses are satisfiable

With the real hash functions and the toy signature scheme. -/

section
attribute [local instance] Concrete.realHashes Concrete.toySecp
local instance releaseLawful : Secp.Lawful := Concrete.toyLawful

-- 2 of 3 are the same in both builds; 176 of 176 are made by one of them only
example : (Release.newMultiSig (exParts.map Participant.key) 180 5 2 .p2sh : Outcome TxError MultiSig) =
    .ok exTwoOfThree := by
  rw [(C107_agrees (ε := TxError) _ 180 5 2 .p2sh (.multi exTwoOfThree) (zeros 32) 4 exTx3.auth exTx3
    ⟨exTx3, zeros 32, false, true, true⟩ (exKey 1)).1 (by rw [exTwoOfThree_new]; nofun), exTwoOfThree_new]
example : (Release.newMultiSig (List.replicate 176 (exKey 1)) 0 0 176 .p2sh : Outcome TxError MultiSig) =
    .ok ⟨.p2sh, 0, 0, hash160Of (multisigScriptSpec 176 (List.replicate 176 (exKey 1))), [], 176⟩ :=
  C107_new _ _ _ _ _
example : (MultiSig.new (List.replicate 176 (exKey 1)) 0 0 176 .p2sh : Outcome TxError MultiSig) = .panic :=
  ((C55_new_panics_iff _ 0 0 176 .p2sh (.inl rfl)).1).2 (.inl (by decide))
-- the number pushed is then 0
example : Release.multisigScript 176 ([] : List Secp.PK) = [0, 80, 174] := rfl

/-- A transfer of an account that requires `m` of `n` keys, all the same. -/
def exManyOf (m : UInt8) (n : Nat) : MultiSig :=
  ⟨.p2sh, 0, 0, hash160Of (multisigScriptSpec m.toNat ((List.replicate n (Participant.signs (exKey 1))).map
    Participant.key)), [], m⟩
def exManyTx (m : UInt8) (n : Nat) : Transaction := { exTx with auth := .standard (.multi (exManyOf m n)) }

-- 200 of 200 verify in this build, which C107_verified_enough and C107_large_refused ask for
example : ∃ s, (Signer.new (exManyTx 200 200) >>= fun s => releaseWalk { s with verifyOversign := true }
    (List.replicate 200 (Participant.signs (exKey 1)))) = .ok s ∧ Release.verifyOrigin s.tx = .ok s.hash := by
  obtain ⟨s, h1, h2⟩ := C107_flow (exManyTx 200 200) (List.replicate 200 (Participant.signs (exKey 1))) 0 0 200 .p2sh
    (exManyOf 200 200) true (C107_new _ _ _ _ _) rfl (wf_encodable_tx _ exTx_wf).2
    (fun _ => by rw [List.countP_replicate]; decide)
  refine ⟨s, h1, ?_⟩
  rw [List.countP_replicate] at h2
  exact h2.trans (if_pos (by decide))

-- 256 of 256 signatures, with 1 required, do not
example : ∃ s, (Signer.new (exManyTx 1 256) >>= fun s => releaseWalk { s with verifyOversign := false }
    (List.replicate 256 (Participant.signs (exKey 1)))) = .ok s ∧
    Release.verifyOrigin s.tx = .err (.badSignatureCount 1 0) := by
  obtain ⟨s, h1, h2⟩ := C107_flow (exManyTx 1 256) (List.replicate 256 (Participant.signs (exKey 1))) 0 0 1 .p2sh
    (exManyOf 1 256) false (C107_new _ _ _ _ _) rfl (wf_encodable_tx _ exTx_wf).2 nofun
  refine ⟨s, h1, ?_⟩
  rw [List.countP_replicate] at h2
  exact h2.trans (if_neg (by decide))

-- C107_oversign
example : ∃ s', Release.signOrigin ⟨{ exTx with auth := .standard (.multi ⟨.p2sh, 0, 0, zeros 20,
    List.replicate 65536 (.msg (zeros 65)), 2⟩) }, zeros 32, false, true, true⟩ (exKey 1) = .ok s' := by
  obtain ⟨s', h, _⟩ := C107_oversign ⟨{ exTx with auth := .standard (.multi ⟨.p2sh, 0, 0, zeros 20,
    List.replicate 65536 (.msg (zeros 65)), 2⟩) }, zeros 32, false, true, true⟩ (exKey 1) _ rfl (.inl rfl) rfl
    (by decide) (by rw [List.countP_replicate]; rfl)
  exact ⟨s', h⟩

-- C107_signer
example : releaseAfter ⟨exTx3, zeros 32, false, true, true⟩ [.signOrigin (exKey 1), .appendOrigin (exKey 2)] =
    after ⟨exTx3, zeros 32, false, true, true⟩ [.signOrigin (exKey 1), .appendOrigin (exKey 2)] :=
  (C107_signer _ rfl ⟨by decide, fun _ h => by cases h⟩ _).1

end

end Stacks.Spec
