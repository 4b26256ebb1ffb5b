import Verif.Proofs.Transaction
import Verif.Spec.Signing

/-! # Lemmas about signing and verification -/

namespace Stacks.Tx
open Stacks.Spec

section
variable [Hashes]

theorem presign_eq [Secp] (h : Arr 32) (typ : UInt8) (fee nonce : UInt64) :
    makePresignHash h typ fee nonce = presignDigest h typ fee nonce := rfl

theorem postsign_eq [Secp] (h : Arr 32) (s : Arr 65) : makePostsignHash h s = postsignDigest h s := rfl

variable [Secp]

theorem nextSignature_eq (h : Arr 32) (typ : UInt8) (fee nonce : UInt64) (k : Secp.SK) :
    nextSignature h typ fee nonce k =
      .ok (signatureBytes (presignDigest h typ fee nonce) k,
        postsignDigest (presignDigest h typ fee nonce) (signatureBytes (presignDigest h typ fee nonce) k)) := by
  unfold nextSignature
  obtain ⟨s, h1, h2⟩ := C19_message_signature_from_recov (Secp.sign (presignDigest h typ fee nonce) k)
  have : s = signatureBytes (presignDigest h typ fee nonce) k := Subtype.ext h2
  subst this
  rw [presign_eq]
  simp only []
  rw [h1]; rfl

omit [Hashes] in
theorem intoRecov_iff (s : Arr 65) (r : Secp.RSig) :
    messageSigIntoRecov s = .ok r ↔
      ∃ (id : Fin 4) (rest : Bytes), s.1 = UInt8.ofNat id :: rest ∧ Secp.fromCompact rest id = .ok r := by
  obtain ⟨s, hs⟩ := s
  match s, hs with
  | b :: rest, hs =>
    unfold messageSigIntoRecov
    simp only []
    rw [Clarity.idx_zero_cons, Outcome.ok_bind]
    by_cases hb : b.toNat < 4
    · rw [dif_pos hb, Outcome.ok_bind, Clarity.sliceFrom_one, Outcome.ok_bind]
      constructor
      · intro h
        refine ⟨⟨b.toNat, hb⟩, rest, by simp, ?_⟩
        cases hc : Secp.fromCompact rest ⟨b.toNat, hb⟩ with
        | ok a => rw [hc] at h; cases h; rfl
        | error e => rw [hc] at h; cases h
      · rintro ⟨id, rest', e, hc⟩
        obtain ⟨rfl, rfl⟩ := List.cons.inj e
        have hid : (⟨(UInt8.ofNat id).toNat, hb⟩ : Fin 4) = id := by
          apply Fin.ext
          show (UInt8.ofNat id).toNat = id
          rw [UInt8.toNat_ofNat', Nat.mod_eq_of_lt (by omega)]
        rw [hid, hc]; rfl
    · rw [dif_neg hb]
      constructor
      · intro h; cases h
      · rintro ⟨id, rest', e, _⟩
        obtain ⟨rfl, _⟩ := List.cons.inj e
        exact absurd (by rw [UInt8.toNat_ofNat', Nat.mod_eq_of_lt (by omega)]; exact id.2) hb

theorem nextVerify_iff (h : Arr 32) (typ : UInt8) (fee nonce : UInt64) (s : Arr 65) (k : Secp.PK) (n : Arr 32) :
    nextVerify h typ fee nonce s = .ok (k, n) ↔
      RecoversKey (presignDigest h typ fee nonce) s k ∧ n = postsignDigest (presignDigest h typ fee nonce) s := by
  unfold nextVerify
  simp only [Outcome.bind_eq_ok, intoRecov_iff, Outcome.pure_def, Outcome.ok.injEq, Prod.mk.injEq]
  have hof : ∀ (x : Except Secp.Err Secp.PK) (k : Secp.PK),
      (ofExcept (ε' := HashError Secp.Err) .secp256k1 x = .ok k ↔ x = .ok k) := by
    intro x k; cases x <;> simp [ofExcept]
  constructor
  · rintro ⟨r, ⟨id, rest, h1, h2⟩, k', h3, rfl, rfl⟩
    exact ⟨⟨id, rest, r, h1, h2, (hof _ _).1 h3⟩, rfl⟩
  · rintro ⟨⟨id, rest, r, h1, h2, h3⟩, rfl⟩
    exact ⟨r, ⟨id, rest, h1, h2⟩, k, (hof _ _).2 h3, rfl, rfl⟩

omit [Hashes] in
theorem intoRecov_not_panic (s : Arr 65) : messageSigIntoRecov s ≠ .panic := by
  obtain ⟨s, hs⟩ := s
  match s, hs with
  | b :: rest, hs =>
    unfold messageSigIntoRecov
    simp only []
    rw [Clarity.idx_zero_cons, Outcome.ok_bind]
    by_cases hb : b.toNat < 4
    · rw [dif_pos hb, Outcome.ok_bind, Clarity.sliceFrom_one, Outcome.ok_bind]
      cases Secp.fromCompact rest ⟨b.toNat, hb⟩ <;> simp [ofExcept]
    · rw [dif_neg hb]; simp

theorem nextVerify_not_panic (h : Arr 32) (typ : UInt8) (fee nonce : UInt64) (s : Arr 65) :
    nextVerify h typ fee nonce s ≠ .panic := by
  unfold nextVerify
  cases hr : messageSigIntoRecov s with
  | ok r =>
    simp only []
    rw [Outcome.ok_bind]
    cases Secp.recover (makePresignHash h typ fee nonce) r <;> simp [ofExcept]
  | err e => simp
  | panic => exact absurd hr (intoRecov_not_panic s)

omit [Hashes] in
theorem recovers_signature [Secp.Lawful] (m : Arr 32) (k : Secp.SK) : RecoversKey m (signatureBytes m k) (Secp.pub k) :=
  ⟨(Secp.compact (Secp.sign m k)).1, _, Secp.sign m k, rfl, Secp.Lawful.fromCompact_compact _,
    Secp.Lawful.recover_sign m k⟩

omit [Hashes] in
theorem recovers_unique {m : Arr 32} {s : Arr 65} {k k' : Secp.PK} (h : RecoversKey m s k) (h' : RecoversKey m s k') :
    k = k' := by
  obtain ⟨id, rest, r, h1, h2, h3⟩ := h
  obtain ⟨id', rest', r', h1', h2', h3'⟩ := h'
  rw [h1] at h1'
  obtain ⟨e1, rfl⟩ := List.cons.inj h1'
  have : id = id' := by
    apply Fin.ext
    have := congrArg UInt8.toNat e1
    rwa [UInt8.toNat_ofNat', UInt8.toNat_ofNat', Nat.mod_eq_of_lt (by omega), Nat.mod_eq_of_lt (by omega)] at this
  subst this
  rw [h2] at h2'
  obtain rfl := Except.ok.inj h2'
  rw [h3] at h3'
  exact Except.ok.inj h3'

/-! ## Single signatures -/

theorem keySigner_p2pkh (k : Secp.PK) : keySigner .p2pkh k = some (C32.hashP2pkh (Secp.serialize k).1) := rfl

theorem keySigner_p2wpkh (k : Secp.PK) : keySigner .p2wpkh k = some (C32.hashP2wpkh (Secp.serialize k).1) := by
  unfold keySigner
  rw [(C32.C20_hash_single_key (Secp.serialize k).1).2]
  rfl

theorem single_new_iff {ε : Type} (pk : Secp.PK) (fee nonce : UInt64) (mode : C32.Mode) (c : SingleSig) :
    (SingleSig.new pk fee nonce mode : Outcome ε SingleSig) = .ok c ↔
      c.mode = mode ∧ c.fee = fee ∧ c.nonce = nonce ∧ keySigner mode pk = some c.signer ∧ c.signature = noSignature := by
  obtain ⟨m, f, n, s, sig⟩ := c
  have e : defaultSignature = noSignature := rfl
  cases mode with
  | p2pkh =>
    rw [keySigner_p2pkh]
    simp only [SingleSig.new, Outcome.ok_bind, Outcome.pure_def, Outcome.ok.injEq, SingleSig.mk.injEq, Option.some.injEq, e]
    constructor
    · rintro ⟨rfl, rfl, rfl, rfl, rfl⟩; simp
    · rintro ⟨rfl, rfl, rfl, rfl, rfl⟩; simp
  | p2wpkh =>
    rw [keySigner_p2wpkh]
    simp only [SingleSig.new, Outcome.ok_bind, Outcome.pure_def, Outcome.ok.injEq, SingleSig.mk.injEq, Option.some.injEq, e]
    constructor
    · rintro ⟨rfl, rfl, rfl, rfl, rfl⟩; simp
    · rintro ⟨rfl, rfl, rfl, rfl, rfl⟩; simp
  | p2sh => simp [SingleSig.new, keySigner]
  | p2wsh => simp [SingleSig.new, keySigner]

/-- What verifying a single signature does once the key is recovered. -/
theorem single_verify_recovered (c : SingleSig) (h : Arr 32) (typ : UInt8) (k : Secp.PK) (s : Arr 20)
    (hr : RecoversKey (presignDigest h typ c.fee c.nonce) c.signature k) (hs : keySigner c.mode k = some s) :
    c.verify h typ = if s = c.signer then .ok (postsignDigest (presignDigest h typ c.fee c.nonce) c.signature)
      else .err (.badSigner (Hex.bytesToHex c.signer.1) (Hex.bytesToHex s.1)) := by
  unfold SingleSig.verify
  rw [(nextVerify_iff h typ c.fee c.nonce c.signature k _).2 ⟨hr, rfl⟩]
  simp only [Outcome.mapErr, Outcome.ok_bind]
  obtain ⟨mode, fee, nonce, signer, sig⟩ := c
  cases mode with
  | p2pkh =>
    obtain rfl := Option.some.inj hs
    simp only [Outcome.ok_bind]
    by_cases he : C32.hashP2pkh (Secp.serialize k).1 = signer
    · rw [if_neg (by simpa using he), if_pos (by exact he)]; rfl
    · rw [if_pos (by simpa using he), if_neg (by exact he)]; rfl
  | p2wpkh =>
    rw [keySigner_p2wpkh] at hs
    obtain rfl := Option.some.inj hs
    simp only [Outcome.ok_bind]
    by_cases he : C32.hashP2wpkh (Secp.serialize k).1 = signer
    · rw [if_neg (by simpa using he), if_pos (by exact he)]; rfl
    · rw [if_pos (by simpa using he), if_neg (by exact he)]
  | p2sh => cases hs
  | p2wsh => cases hs

/-- Exactly when a single signature verifies. -/
theorem single_verify_iff (c : SingleSig) (h : Arr 32) (typ : UInt8) (n : Arr 32) :
    c.verify h typ = .ok n ↔
      ∃ k, RecoversKey (presignDigest h typ c.fee c.nonce) c.signature k ∧ keySigner c.mode k = some c.signer ∧
        n = postsignDigest (presignDigest h typ c.fee c.nonce) c.signature := by
  constructor
  · intro hv
    have hv' := hv
    unfold SingleSig.verify at hv'
    rw [Outcome.bind_eq_ok] at hv'
    obtain ⟨⟨k, n'⟩, h1, h2⟩ := hv'
    rw [Outcome.mapErr_eq_ok, nextVerify_iff] at h1
    obtain ⟨hr, rfl⟩ := h1
    have hs : ∃ s, keySigner c.mode k = some s := by
      cases hm : c.mode with
      | p2pkh => exact ⟨_, rfl⟩
      | p2wpkh => exact ⟨_, rfl⟩
      | p2sh => simp only [hm] at h2; cases h2
      | p2wsh => simp only [hm] at h2; cases h2
    obtain ⟨s, hs⟩ := hs
    rw [single_verify_recovered c h typ k s hr hs] at hv
    split at hv
    · rename_i he
      cases hv
      exact ⟨k, hr, he ▸ hs, rfl⟩
    · cases hv
  · rintro ⟨k, hr, hs, rfl⟩
    rw [single_verify_recovered c h typ k _ hr hs, if_pos rfl]

/-! ## Several signatures -/

theorem verifyFields_iff (typ : UInt8) (fee nonce : UInt64) (fs : List AuthField) :
    ∀ (acc : List Secp.PK) (h : Arr 32) (cnt : UInt8) (r : List Secp.PK × Arr 32 × UInt8),
      verifyFields typ fee nonce fs acc h cnt = .ok r ↔
        ∃ ks h', Recovers typ fee nonce h fs ks h' ∧ cnt.toNat + fs.countP isSignature < 256 ∧
          r = (acc ++ ks, h', UInt8.ofNat (cnt.toNat + fs.countP isSignature)) := by
  induction fs with
  | nil =>
    intro acc h cnt r
    rw [verifyFields, Outcome.ok.injEq]
    constructor
    · rintro rfl
      exact ⟨[], h, .nil h, by simpa using cnt.toNat_lt, by simp⟩
    · rintro ⟨ks, h', hr, _, rfl⟩
      cases hr
      simp
  | cons f fs ih =>
    intro acc h cnt r
    cases f with
    | pk k =>
      rw [verifyFields, ih]
      constructor
      · rintro ⟨ks, h', hr, hc, rfl⟩
        exact ⟨k :: ks, h', .pk h h' k fs ks hr, by simpa [isSignature] using hc, by simp [isSignature]⟩
      · rintro ⟨ks, h', hr, hc, rfl⟩
        cases hr with
        | pk _ _ _ _ ks hr => exact ⟨ks, h', hr, by simpa [isSignature] using hc, by simp [isSignature]⟩
    | msg s =>
      rw [verifyFields, Outcome.bind_eq_ok]
      have ec : (AuthField.msg s :: fs).countP isSignature = fs.countP isSignature + 1 :=
        List.countP_cons_of_pos rfl
      rw [ec]
      constructor
      · rintro ⟨⟨k, n⟩, h1, h2⟩
        rw [Outcome.mapErr_eq_ok, nextVerify_iff] at h1
        obtain ⟨hk, rfl⟩ := h1
        simp only [] at h2
        split at h2
        · rename_i hlt
          obtain ⟨ks, h', hr, hc, rfl⟩ := (ih _ _ _ _).1 h2
          have e1 : (cnt + 1).toNat = cnt.toNat + 1 := by
            rw [UInt8.toNat_add]; exact Nat.mod_eq_of_lt hlt
          rw [e1] at hc ⊢
          refine ⟨k :: ks, h', .msg h h' s k fs ks hk hr, by omega, ?_⟩
          rw [List.append_assoc, List.singleton_append, show cnt.toNat + 1 + fs.countP isSignature =
            cnt.toNat + (fs.countP isSignature + 1) by omega]
        · cases h2
      · rintro ⟨ks, h', hr, hc, rfl⟩
        cases hr with
        | msg _ _ _ k _ ks hk hr =>
          refine ⟨(k, _), by rw [Outcome.mapErr_eq_ok, nextVerify_iff]; exact ⟨hk, rfl⟩, ?_⟩
          have hlt : cnt.toNat + 1 < 256 := by omega
          simp only []
          rw [if_pos hlt, ih]
          have e1 : (cnt + 1).toNat = cnt.toNat + 1 := by
            rw [UInt8.toNat_add]; exact Nat.mod_eq_of_lt hlt
          refine ⟨ks, h', hr, by rw [e1]; omega, ?_⟩
          rw [e1, List.append_assoc, List.singleton_append, show cnt.toNat + 1 + fs.countP isSignature =
            cnt.toNat + (fs.countP isSignature + 1) by omega]

/-- With few signatures the loop can only fail with an error of the signature code. -/
theorem verifyFields_err (typ : UInt8) (fee nonce : UInt64) (fs : List AuthField) :
    ∀ (acc : List Secp.PK) (h : Arr 32) (cnt : UInt8), cnt.toNat + fs.countP isSignature < 256 →
      (∃ r, verifyFields typ fee nonce fs acc h cnt = .ok r) ∨
      ∃ e, verifyFields typ fee nonce fs acc h cnt = .err (.hash e) := by
  induction fs with
  | nil => intro acc h cnt _; exact .inl ⟨_, rfl⟩
  | cons f fs ih =>
    intro acc h cnt hc
    cases f with
    | pk k => rw [verifyFields]; exact ih _ _ _ (by simpa [isSignature] using hc)
    | msg s =>
      have ec : (AuthField.msg s :: fs).countP isSignature = fs.countP isSignature + 1 :=
        List.countP_cons_of_pos rfl
      rw [ec] at hc
      rw [verifyFields]
      cases hv : nextVerify h typ fee nonce s with
      | ok r =>
        obtain ⟨k, n⟩ := r
        simp only [Outcome.mapErr, Outcome.ok_bind]
        have hlt : cnt.toNat + 1 < 256 := by omega
        rw [if_pos hlt]
        apply ih
        rw [UInt8.toNat_add, show ((1 : UInt8).toNat) = 1 from rfl, Nat.mod_eq_of_lt hlt]; omega
      | err e => exact .inr ⟨e, rfl⟩
      | panic => exact absurd hv (nextVerify_not_panic _ _ _ _ _)

omit [Hashes] in
/-- The script is built unless one of the two additions overflows. -/
theorem multisigScript_iff {ε : Type} (m : UInt8) (keys : List Secp.PK) (bs : Bytes) :
    (C32.multisigScript m keys : Outcome ε Bytes) = .ok bs ↔
      m.toNat ≤ 175 ∧ keys.length % 256 ≤ 175 ∧ bs = multisigScriptSpec m.toNat keys := by
  have hlen : (UInt8.ofNat keys.length).toNat = keys.length % 256 := by rw [UInt8.toNat_ofNat']
  unfold C32.multisigScript C32.addU8
  by_cases hm : m.toNat ≤ 175
  · rw [if_pos (by show m.toNat + 80 < 256; omega), hlen]
    by_cases hn : keys.length % 256 ≤ 175
    · rw [if_pos (by show keys.length % 256 + 80 < 256; omega)]
      simp only [Outcome.ok_bind, Outcome.pure_def, Outcome.ok.injEq]
      have e : [m + 80] ++ (keys.flatMap fun key =>
          UInt8.ofNat (Secp.serialize key).1.length :: (Secp.serialize key).1) ++ [UInt8.ofNat keys.length + 80] ++ [174] =
          multisigScriptSpec m.toNat keys := by
        unfold multisigScriptSpec
        have e1 : m + 80 = UInt8.ofNat (80 + m.toNat) := by
          apply UInt8.toNat_inj.1
          rw [UInt8.toNat_add, UInt8.toNat_ofNat']; show (m.toNat + 80) % 256 = _; omega
        have e2 : UInt8.ofNat keys.length + 80 = UInt8.ofNat (80 + keys.length) := by
          apply UInt8.toNat_inj.1
          rw [UInt8.toNat_add, UInt8.toNat_ofNat', UInt8.toNat_ofNat']
          show (keys.length % 256 + 80) % 256 = _; omega
        have e3 : (fun key : Secp.PK => UInt8.ofNat (Secp.serialize key).1.length :: (Secp.serialize key).1) =
            fun k => 33 :: (Secp.serialize k).1 := by
          funext k; rw [(Secp.serialize k).2]; rfl
        rw [e1, e2, e3]; simp
      rw [e]
      exact ⟨fun h => ⟨hm, hn, h.symm⟩, fun h => h.2.2.symm⟩
    · rw [if_neg (by show ¬ keys.length % 256 + 80 < 256; omega)]
      exact ⟨fun h => by simp at h, fun h => absurd h.2.1 hn⟩
  · rw [if_neg (by show ¬ m.toNat + 80 < 256; omega)]
    exact ⟨fun h => by simp at h, fun h => absurd h.1 hm⟩

omit [Hashes] in
theorem multisigScript_cases {ε : Type} (m : UInt8) (keys : List Secp.PK) :
    (∃ bs, (C32.multisigScript m keys : Outcome ε Bytes) = .ok bs) ∨
      (C32.multisigScript m keys : Outcome ε Bytes) = .panic := by
  unfold C32.multisigScript C32.addU8
  split
  · simp only [Outcome.ok_bind]
    split
    · exact .inl ⟨_, rfl⟩
    · exact .inr rfl
  · exact .inr rfl

/-- The signer hash computed by `new` and `verify`. -/
def signerHash {ε : Type} (mode : C32.Mode) (m : UInt8) (ks : List Secp.PK) : Outcome ε (Arr 20) :=
  match mode with
  | .p2sh => C32.hashP2sh m ks
  | .p2wsh => C32.hashP2wsh m ks
  | _ => .panic

theorem signerHash_iff {ε : Type} (mode : C32.Mode) (m : UInt8) (ks : List Secp.PK) (s : Arr 20) :
    (signerHash mode m ks : Outcome ε (Arr 20)) = .ok s ↔
      m.toNat ≤ 175 ∧ ks.length % 256 ≤ 175 ∧ scriptSigner mode m.toNat ks = some s := by
  cases mode with
  | p2pkh => simp [scriptSigner, signerHash]
  | p2wpkh => simp [scriptSigner, signerHash]
  | p2sh =>
    simp only [scriptSigner, signerHash, C32.hashP2sh, Outcome.bind_eq_ok, multisigScript_iff, Option.some.injEq,
      Outcome.pure_def, Outcome.ok.injEq]
    constructor
    · rintro ⟨_, ⟨h1, h2, rfl⟩, rfl⟩; exact ⟨h1, h2, rfl⟩
    · rintro ⟨h1, h2, rfl⟩; exact ⟨_, ⟨h1, h2, rfl⟩, rfl⟩
  | p2wsh =>
    simp only [scriptSigner, signerHash, C32.hashP2wsh, Outcome.bind_eq_ok, multisigScript_iff, Option.some.injEq,
      Outcome.pure_def, Outcome.ok.injEq, sha256Hash, (Hashes.sha256 _).2]
    constructor
    · rintro ⟨_, ⟨h1, h2, rfl⟩, rfl⟩; exact ⟨h1, h2, rfl⟩
    · rintro ⟨h1, h2, rfl⟩; exact ⟨_, ⟨h1, h2, rfl⟩, rfl⟩

theorem signerHash_cases {ε : Type} (mode : C32.Mode) (m : UInt8) (ks : List Secp.PK) :
    (∃ s, (signerHash mode m ks : Outcome ε (Arr 20)) = .ok s) ∨
      (signerHash mode m ks : Outcome ε (Arr 20)) = .panic := by
  cases mode with
  | p2pkh => exact .inr rfl
  | p2wpkh => exact .inr rfl
  | p2sh =>
    show (∃ s, C32.hashP2sh m ks = .ok s) ∨ C32.hashP2sh m ks = .panic
    unfold C32.hashP2sh
    rcases multisigScript_cases (ε := ε) m ks with ⟨bs, h⟩ | h
    · rw [h]; exact .inl ⟨_, rfl⟩
    · rw [h]; exact .inr rfl
  | p2wsh =>
    show (∃ s, C32.hashP2wsh m ks = .ok s) ∨ C32.hashP2wsh m ks = .panic
    unfold C32.hashP2wsh
    rcases multisigScript_cases (ε := ε) m ks with ⟨bs, h⟩ | h
    · rw [h]; exact .inl ⟨_, rfl⟩
    · rw [h]; exact .inr rfl

theorem multi_new_iff {ε : Type} (pks : List Secp.PK) (fee nonce : UInt64) (m : UInt8) (mode : C32.Mode)
    (c : MultiSig) :
    (MultiSig.new pks fee nonce m mode : Outcome ε MultiSig) = .ok c ↔
      (m.toNat ≤ 175 ∧ pks.length % 256 ≤ 175) ∧ scriptSigner mode m.toNat pks = some c.signer ∧
        c = ⟨mode, fee, nonce, c.signer, [], m⟩ := by
  show ((signerHash mode m pks : Outcome ε (Arr 20)) >>= fun s => .ok (⟨mode, fee, nonce, s, [], m⟩ : MultiSig)) = _ ↔ _
  rw [Outcome.bind_eq_ok]
  simp only [signerHash_iff, Outcome.ok.injEq]
  constructor
  · rintro ⟨s, ⟨h1, h2, h3⟩, rfl⟩; exact ⟨⟨h1, h2⟩, h3, rfl⟩
  · rintro ⟨⟨h1, h2⟩, h3, h4⟩; exact ⟨c.signer, ⟨h1, h2, h3⟩, h4.symm⟩

/-- What verification does after the loop. -/
theorem multi_verify_eq (c : MultiSig) (h : Arr 32) (typ : UInt8) :
    c.verify h typ = (verifyFields typ c.fee c.nonce c.fields [] h 0 >>= fun r =>
      if r.2.2 < c.required then .err (.badSignatureCount c.required r.2.2)
      else signerHash c.mode c.required r.1 >>= fun s =>
        if s ≠ c.signer then .err (.badSigner (Hex.bytesToHex c.signer.1) (Hex.bytesToHex s.1))
        else .ok r.2.1) := rfl

/-- Exactly when several signatures verify. -/
theorem multi_verify_iff (c : MultiSig) (h : Arr 32) (typ : UInt8) (n : Arr 32) :
    c.verify h typ = .ok n ↔
      ∃ ks, Recovers typ c.fee c.nonce h c.fields ks n ∧ c.required.toNat ≤ c.fields.countP isSignature ∧
        c.fields.countP isSignature < 256 ∧ (c.required.toNat ≤ 175 ∧ ks.length % 256 ≤ 175) ∧
        scriptSigner c.mode c.required.toNat ks = some c.signer := by
  rw [multi_verify_eq, Outcome.bind_eq_ok]
  constructor
  · rintro ⟨r, h1, h2⟩
    rw [verifyFields_iff] at h1
    obtain ⟨ks, h', hr, hc, rfl⟩ := h1
    simp only [List.nil_append, show (0 : UInt8).toNat = 0 from rfl, Nat.zero_add] at h2 hc
    split at h2
    · cases h2
    · rename_i hlt
      rw [UInt8.lt_iff_toNat_lt, UInt8.toNat_ofNat', Nat.mod_eq_of_lt hc] at hlt
      rw [Outcome.bind_eq_ok] at h2
      obtain ⟨s, h3, h4⟩ := h2
      rw [signerHash_iff] at h3
      split at h4
      · cases h4
      · rename_i he
        cases h4
        have he' : s = c.signer := by simpa using he
        exact ⟨ks, hr, by omega, hc, ⟨h3.1, h3.2.1⟩, he' ▸ h3.2.2⟩
  · rintro ⟨ks, hr, hq, hc, ⟨h1, h2⟩, h3⟩
    refine ⟨(ks, n, UInt8.ofNat (c.fields.countP isSignature)), ?_, ?_⟩
    · rw [verifyFields_iff]
      exact ⟨ks, n, hr, by simpa using hc, by simp⟩
    · have hlt : ¬ UInt8.ofNat (c.fields.countP isSignature) < c.required := by
        rw [UInt8.lt_iff_toNat_lt, UInt8.toNat_ofNat', Nat.mod_eq_of_lt hc]; omega
      simp only []
      rw [if_neg hlt, (signerHash_iff _ _ _ _).2 ⟨h1, h2, h3⟩, Outcome.ok_bind, if_neg (by simp)]

end

end Stacks.Tx
