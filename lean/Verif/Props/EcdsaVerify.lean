import Verif.Concrete.EcdsaRecover
import Verif.Spec.Twin
import Verif.Props.Secp256k1

/-! # C82: the crate's verification is ECDSA's. C83: signatures have twins -/

namespace Stacks.Tx
open Stacks.Concrete.Ecdsa Stacks.Spec WeierstrassCurve

/-- **C82** The group has prime order: all its points are multiples of the base point. -/
theorem C82_group_order : Nat.card Ecdsa.curve.Point = Ecdsa.order ∧ Ecdsa.order.Prime ∧
    ∀ Q : Ecdsa.curve.Point, ∃ e, e < Ecdsa.order ∧ Q = e • G :=
  ⟨card_eq, n_prime, exists_smul⟩

/-- **C82** Every public key belongs to exactly one secret key. -/
theorem C82_key_pairs (q : PK) : ∃! d : SK, pub d = q := by
  obtain ⟨d, hd⟩ := exists_secret q
  refine ⟨d, hd, fun d' hd' => ?_⟩
  have h1 := pub_rep d
  have h2 := pub_rep d'
  rw [hd] at h1
  rw [hd'] at h2
  obtain ⟨hQ, e1, _⟩ := repA_some h1
  obtain ⟨hQ', e2, _⟩ := repA_some h2
  have h3 : d'.1 • G = d.1 • G := e2.trans e1.symm
  rw [nsmul_inj_mod, addOrderOf_G, Nat.mod_eq_of_lt d.2.2, Nat.mod_eq_of_lt d'.2.2] at h3
  exact Subtype.ext h3

/-- The point of a public key. -/
theorem key_nonsingular (q : PK) :
    Ecdsa.curve.Nonsingular (q.1.1 : ZMod Ecdsa.fieldPrime) (q.1.2 : ZMod Ecdsa.fieldPrime) :=
  nonsingular_of ((valid_iff q.2.1 q.2.2.1).1 q.2)

theorem pub_point (d : SK) : d.1 • G = Affine.Point.some _ _ (key_nonsingular (pub d)) := by
  obtain ⟨hQ, e, _⟩ := repA_some (pub_rep d)
  exact e

theorem repA_point {x y : F} (hN : W.Nonsingular x y) :
    RepA (some (x.val, y.val)) (Affine.Point.some x y hN) := by
  have hN' : W.Nonsingular ((x.val : Nat) : F) ((y.val : Nat) : F) := by
    rw [ZMod.natCast_zmod_val, ZMod.natCast_zmod_val]; exact hN
  have := repA_mk (ZMod.val_lt x) (ZMod.val_lt y) hN'
  convert this using 2 <;> rw [ZMod.natCast_zmod_val]

theorem fits_verifies {m : Arr 32} {t : RSig} {d : SK} {e x y : Nat} (h : Fits m t d e x y) :
    Ecdsa.Verifies G (d.1 • G) (beVal m.1) t.1.1 t.1.2.1 := by
  have hs0 := h.s_ne
  have hs := t.2.2
  have hr := h.r_ne
  refine ⟨by rw [h.r_eq]; omega, t.2.1, by omega, hs, fun u v hu hv => ?_⟩
  have hs' : (t.1.2.1 : ZMod n) ≠ 0 := fun h => by rw [castn_zero_iff hs] at h; omega
  have hu' : (u : ZMod n) * t.1.2.1 = beVal m.1 := by
    have := (ZMod.natCast_eq_natCast_iff (u * t.1.2.1) (beVal m.1) n).2 hu
    push_cast at this; exact this
  have hv' : (v : ZMod n) * t.1.2.1 = x := by
    have := (ZMod.natCast_eq_natCast_iff (v * t.1.2.1) t.1.1 n).2 hv
    rw [h.r_eq, ZMod.natCast_mod] at this
    push_cast at this; exact this
  have hpt : u • G + v • (d.1 • G) = e • G := by
    rw [← mul_nsmul', ← add_nsmul]
    apply smul_eq
    push_cast
    have : (t.1.2.1 : ZMod n) * (u + v * d.1) = (t.1.2.1 : ZMod n) * e := by
      rw [h.eq]; linear_combination hu' + d.1 * hv'
    exact mul_left_cancel₀ hs' this
  obtain ⟨hQ, hE, hx, hy⟩ := repA_some h.point
  refine ⟨_, _, hQ, hpt.trans hE, ?_⟩
  show (ZMod.val ((x : Nat) : F)) % n = t.1.1 % n
  rw [ZMod.val_natCast, Nat.mod_eq_of_lt hx, h.r_eq, Nat.mod_mod]

/-- **C82** Recovery gives the key `q`, for one of the four recovery identifiers, exactly when the
signature is valid for `q` by the definition of ECDSA. -/
theorem C82_recover_iff (m : Arr 32) (r s : Nat) (hrs : r < n ∧ s < n) (q : PK) :
    (∃ id, recover m ⟨(r, s, id), hrs⟩ = .ok q) ↔
      Ecdsa.Verifies G (.some _ _ (key_nonsingular q)) (beVal m.1) r s := by
  constructor
  · rintro ⟨id, h⟩
    obtain ⟨d, e, x, y, rfl, hf⟩ := recover_fits h
    rw [← pub_point]
    exact fits_verifies hf
  · rintro ⟨hr0, hr, hs0, hs, h⟩
    obtain ⟨d, rfl⟩ := exists_secret q
    rw [← pub_point] at h
    have hr : r < n := hr
    have hs : s < n := hs
    have hs' : (s : ZMod n) ≠ 0 := fun h => by rw [castn_zero_iff hs] at h; omega
    -- the multipliers
    let u : Nat := ((beVal m.1 : ZMod n) * (s : ZMod n)⁻¹).val
    let v : Nat := ((r : ZMod n) * (s : ZMod n)⁻¹).val
    have hu : ((u : Nat) : ZMod n) = (beVal m.1 : ZMod n) * (s : ZMod n)⁻¹ := ZMod.natCast_zmod_val _
    have hv : ((v : Nat) : ZMod n) = (r : ZMod n) * (s : ZMod n)⁻¹ := ZMod.natCast_zmod_val _
    obtain ⟨x, y, hN, hP, hx⟩ := h u v
      ((ZMod.natCast_eq_natCast_iff _ _ n).1 (by push_cast; rw [hu]; field_simp))
      ((ZMod.natCast_eq_natCast_iff _ _ n).1 (by push_cast; rw [hv]; field_simp))
    obtain ⟨e, he, hE⟩ := exists_smul (.some x y hN)
    have he0 : 0 < e := by
      rcases Nat.eq_zero_or_pos e with rfl | h
      · rw [zero_nsmul] at hE; exact absurd hE (Affine.Point.some_ne_zero hN)
      · exact h
    have hR : RepA (some (ZMod.val (n := p) x, ZMod.val (n := p) y)) (e • G) := by
      rw [← hE]
      exact repA_point hN
    have hxr : ZMod.val (n := p) x % n = r := by
      have : ZMod.val (n := p) x % n = r % n := hx
      rw [this, Nat.mod_eq_of_lt hr]
    have hxc : ((ZMod.val (n := p) x : Nat) : ZMod n) = (r : ZMod n) := by rw [← hxr, ZMod.natCast_mod]
    have hec : (e : ZMod n) = (u : ZMod n) + v * d.1 := by
      have h1 : e • G = (u + v * d.1) • G := by
        rw [add_nsmul, mul_nsmul']
        exact hE.symm.trans hP.symm
      rw [nsmul_inj_mod, addOrderOf_G] at h1
      have := (ZMod.natCast_eq_natCast_iff e (u + v * d.1) n).2 h1
      push_cast at this
      exact this
    refine ⟨recId (ZMod.val (n := p) x) (ZMod.val (n := p) y) false, Fits.recover (e := e)
      (x := ZMod.val (n := p) x) (y := ZMod.val (n := p) y)
      ⟨he0, he, hR, by omega, by dsimp only; omega, ?_, hxr.symm, recId_div _ _ _, ?_⟩⟩
    · dsimp only
      rw [hec, hxc, hu, hv]
      field_simp
    · refine (recId_mod _ _ _).trans ?_
      cases (ZMod.val (n := p) y % 2 == 1) <;> rfl

/-- The 64 bytes `r`, `s` are a valid ECDSA signature of the digest `m` for the key `q`. -/
def ValidSignature (m : Arr 32) (rs : Bytes) (q : PK) : Prop :=
  Ecdsa.Verifies G (.some _ _ (key_nonsingular q)) (beVal m.1) (beVal (rs.take 32)) (beVal (rs.drop 32))

theorem signatureBytes_eq [Secp] (m : Arr 32) (k : Secp.SK) : (signatureBytes m k).1 =
    UInt8.ofNat (Secp.compact (Secp.sign m k)).1 :: (Secp.compact (Secp.sign m k)).2.1 := by
  rw [signatureBytes]

section
variable [Hashes]
attribute [local instance] realSecp
local instance ecdsaVerifyLawful : Secp.Lawful := realLawful

omit [Hashes] in
theorem recoversKey_iff (m : Arr 32) (b : UInt8) (rs : Bytes) (hl : (b :: rs).length = 65) (q : PK) :
    RecoversKey m ⟨b :: rs, hl⟩ q ↔ ∃ (id : Fin 4) (h : beVal (rs.take 32) < n ∧ beVal (rs.drop 32) < n),
      b = UInt8.ofNat id ∧ recover m ⟨(beVal (rs.take 32), beVal (rs.drop 32), id), h⟩ = .ok q := by
  have hl' : rs.length = 64 := by simpa using hl
  constructor
  · rintro ⟨id, rest, r, h1, h2, h3⟩
    simp only [List.cons.injEq] at h1
    obtain ⟨rfl, rfl⟩ := h1
    replace h2 : fromCompact rs id = .ok r := h2
    unfold fromCompact at h2
    split at h2
    · rename_i h
      cases h2
      exact ⟨id, h.2, rfl, h3⟩
    · cases h2
  · rintro ⟨id, h, rfl, hr⟩
    refine ⟨id, rs, _, rfl, ?_, hr⟩
    show fromCompact rs id = _
    unfold fromCompact
    rw [dif_pos ⟨hl', h⟩]

omit [Hashes] in
/-- **C82** In bytes: 65 bytes recover the key `q`, for some first byte, exactly when the other 64
bytes are a valid signature for `q`. -/
theorem C82_bytes_iff (m : Arr 32) (rs : Arr 64) (q : PK) :
    (∃ b : UInt8, RecoversKey m ⟨b :: rs.1, by simp [rs.2]⟩ q) ↔ ValidSignature m rs.1 q := by
  simp only [recoversKey_iff]
  constructor
  · rintro ⟨b, id, h, rfl, hr⟩
    exact (C82_recover_iff m _ _ h q).1 ⟨id, hr⟩
  · intro hv
    have h : beVal (rs.1.take 32) < n ∧ beVal (rs.1.drop 32) < n := ⟨hv.2.1, hv.2.2.2.1⟩
    obtain ⟨id, hr⟩ := (C82_recover_iff m _ _ h q).2 hv
    exact ⟨_, id, h, rfl, hr⟩

omit [Hashes] in
theorem recoversKey_valid {m : Arr 32} {sig : Arr 65} {q : PK} (h : RecoversKey m sig q) :
    ValidSignature m (sig.1.drop 1) q := by
  obtain ⟨bs, hl⟩ := sig
  match bs, hl, h with
  | b :: rs, hl, h => exact (C82_bytes_iff m ⟨rs, by simpa using hl⟩ q).1 ⟨b, h⟩

/-- **C82** A single signature verifies, with some recovery identifier in front, exactly when it is
a valid ECDSA signature of the digest for a key whose hash is the signer. -/
theorem C82_single_iff (c : SingleSig) (h : Arr 32) (typ : UInt8) (rs : Arr 64) :
    (∃ b n, ({ c with signature := ⟨b :: rs.1, by simp [rs.2]⟩ } : SingleSig).verify h typ = .ok n) ↔
      ∃ q, keySigner c.mode q = some c.signer ∧ ValidSignature (presignDigest h typ c.fee c.nonce) rs.1 q := by
  simp only [single_verify_iff, ← C82_bytes_iff]
  constructor
  · rintro ⟨b, n, q, h1, h2, _⟩; exact ⟨q, h2, b, h1⟩
  · rintro ⟨q, h2, b, h1⟩; exact ⟨b, _, q, h1, h2, rfl⟩

/-- **C82** So an origin with a single signature is accepted only with a valid ECDSA signature, of the
digest of this very transaction, for a key whose hash is the signer. -/
theorem C82_origin_verified (t : Transaction) (c : SingleSig) (n : Arr 32) (hc : t.auth.origin = .single c)
    (hv : t.verifyOrigin = .ok n) :
    ∃ q, keySigner c.mode q = some c.signer ∧
      ValidSignature (presignDigest (Hashes.sha512_256 (signingPreimage t)) 4 c.fee c.nonce) (c.signature.1.drop 1) q := by
  obtain ⟨_, hv⟩ := (verifyOrigin_iff t n).1 hv
  rw [hc] at hv
  obtain ⟨q, h1, h2, _⟩ := (single_verify_iff c _ 4 n).1 hv
  exact ⟨q, h2, recoversKey_valid h1⟩

/-- A chain of valid ECDSA signatures, each of the digest that binds the previous ones. -/
inductive ValidChain (typ : UInt8) (fee nonce : UInt64) : Arr 32 → List AuthField → List PK → Prop where
  | nil (h : Arr 32) : ValidChain typ fee nonce h [] []
  | pk (h : Arr 32) (k : PK) (fs : List AuthField) (ks : List PK) :
      ValidChain typ fee nonce h fs ks → ValidChain typ fee nonce h (.pk k :: fs) (k :: ks)
  | msg (h : Arr 32) (s : Arr 65) (k : PK) (fs : List AuthField) (ks : List PK) :
      ValidSignature (presignDigest h typ fee nonce) (s.1.drop 1) k →
      ValidChain typ fee nonce (postsignDigest (presignDigest h typ fee nonce) s) fs ks →
      ValidChain typ fee nonce h (.msg s :: fs) (k :: ks)

theorem recovers_valid {typ : UInt8} {fee nonce : UInt64} {h n : Arr 32} {fs : List AuthField} {ks : List PK}
    (hr : Recovers typ fee nonce h fs ks n) : ValidChain typ fee nonce h fs ks := by
  induction hr with
  | nil h => exact .nil h
  | pk h h' k fs ks _ ih => exact .pk h k fs ks ih
  | msg h h' s k fs ks h1 _ ih => exact .msg h s k fs ks (recoversKey_valid h1) ih

/-- **C82** And a multi-sig origin only with at least the required number of valid ECDSA signatures,
chained, for keys whose script, together with the listed keys, hashes to the signer. -/
theorem C82_multisig_verified (t : Transaction) (c : MultiSig) (n : Arr 32) (hc : t.auth.origin = .multi c)
    (hv : t.verifyOrigin = .ok n) :
    ∃ ks, ValidChain 4 c.fee c.nonce (Hashes.sha512_256 (signingPreimage t)) c.fields ks ∧
      c.required.toNat ≤ c.fields.countP isSignature ∧ scriptSigner c.mode c.required.toNat ks = some c.signer := by
  obtain ⟨_, hv⟩ := (verifyOrigin_iff t n).1 hv
  rw [hc] at hv
  obtain ⟨ks, h1, h2, _, _, h3⟩ := (multi_verify_iff c _ 4 n).1 hv
  exact ⟨ks, recovers_valid h1, h2, h3⟩

/-! ## C83 -/

omit [Hashes] in
/-- **C83** The twin of a signature recovers the same key; it is another signature, and its own twin
is the signature. -/
theorem C83_twin (m : Arr 32) (sig : Arr 65) (q : PK) (h : RecoversKey m sig q) :
    RecoversKey m (twinBytes sig) q ∧ twinBytes sig ≠ sig ∧ twinBytes (twinBytes sig) = sig := by
  obtain ⟨bs, hl⟩ := sig
  match bs, hl, h with
  | b :: rs, hl, h =>
    have hl' : rs.length = 64 := by simpa using hl
    obtain ⟨id, hrs, rfl, hr⟩ := (recoversKey_iff m b rs hl q).1 h
    obtain ⟨d, e, x, y, rfl, hf⟩ := recover_fits hr
    have hs0 := hf.s_ne
    dsimp only at hs0
    have ht := hf.twin.recover
    have hord : Ecdsa.order = Concrete.Ecdsa.n := rfl
    have hlt : Ecdsa.order - beVal (rs.drop 32) < 256 ^ 32 :=
      lt_of_le_of_lt (Nat.sub_le _ _) (by decide)
    have hx : ∀ i : Fin 4, UInt8.ofNat i ^^^ 1 = UInt8.ofNat ((i ^^^ 1 : Fin 4) : Fin 4) := by decide
    have hx2 : ∀ i : Fin 4, UInt8.ofNat i ^^^ 1 ≠ UInt8.ofNat i := by decide
    have e1 : twinBytes ⟨UInt8.ofNat id :: rs, hl⟩ = ⟨UInt8.ofNat ((id ^^^ 1 : Fin 4) : Fin 4) ::
        (rs.take 32 ++ beBytes 32 (Ecdsa.order - beVal (rs.drop 32))), by simp [hl']⟩ :=
      Subtype.ext (congrArg (· :: _) (hx id))
    have htk : (rs.take 32).length = 32 := by simp [hl']
    have h1 : (rs.take 32 ++ beBytes 32 (Ecdsa.order - beVal (rs.drop 32))).take 32 = rs.take 32 :=
      List.take_left' htk
    have h2 : (rs.take 32 ++ beBytes 32 (Ecdsa.order - beVal (rs.drop 32))).drop 32 =
        beBytes 32 (Ecdsa.order - beVal (rs.drop 32)) := List.drop_left' htk
    refine ⟨?_, ?_, ?_⟩
    · rw [e1, recoversKey_iff]
      have hv := beVal_beBytes (n := 32) hlt
      refine ⟨id ^^^ 1, by rw [h1, h2, hv]; exact ⟨hrs.1, by omega⟩, rfl, ?_⟩
      rw [← ht]
      congr 1
      apply Subtype.ext
      show (_, _, _) = (_, _, _)
      rw [h1, h2, hv]
      show _ = (_, (Concrete.Ecdsa.n - beVal (rs.drop 32)) % Concrete.Ecdsa.n, _)
      rw [Nat.mod_eq_of_lt (show Concrete.Ecdsa.n - beVal (rs.drop 32) < Concrete.Ecdsa.n by omega)]
      rfl
    · intro he
      have := congrArg (fun a : Arr 65 => a.1.head?) he
      simp only [twinBytes, List.head?_cons, Option.some.injEq, List.head_cons] at this
      exact hx2 id this
    · rw [e1]
      apply Subtype.ext
      show (UInt8.ofNat ((id ^^^ 1 : Fin 4) : Fin 4) ^^^ 1) :: _ = UInt8.ofNat id :: rs
      rw [hx, show ∀ i : Fin 4, (i ^^^ 1 ^^^ 1 : Fin 4) = i from by decide]
      congr 1
      show (_ : Bytes).take 32 ++ beBytes 32 (Ecdsa.order - beVal ((_ : Bytes).drop 32)) = rs
      rw [List.drop_one, List.tail_cons, h1, h2, beVal_beBytes hlt,
        Nat.sub_sub_self (by omega), beBytes_beVal' (by simp [hl']), List.take_append_drop]

omit [Hashes] in
theorem compact_low (t : RSig) : (UInt8.ofNat (compact t).1 :: (compact t).2.1).drop 33 = beBytes 32 t.1.2.1 := by
  rw [List.drop_succ_cons]
  exact List.drop_left' (beBytes_length _ _)

omit [Hashes] in
theorem twin_low (sg : Arr 65) :
    (twinBytes sg).1.drop 33 = beBytes 32 (Ecdsa.order - beVal (sg.1.drop 33)) := by
  unfold twinBytes
  rw [List.drop_succ_cons]
  exact List.drop_left' (by simp [sg.2])

omit [Hashes] in
theorem low_of (t : RSig) (sg : Arr 65) (h : 2 * t.1.2.1 < Ecdsa.order)
    (he : sg.1 = UInt8.ofNat (Secp.compact t).1 :: (Secp.compact t).2.1) :
    2 * beVal (sg.1.drop 33) < Ecdsa.order ∧ Ecdsa.order < 2 * beVal ((twinBytes sg).1.drop 33) := by
  have hlt : t.1.2.1 < 256 ^ 32 := lt_trans t.2.2 (by decide)
  rw [twin_low, he]
  change 2 * beVal ((UInt8.ofNat (compact t).1 :: (compact t).2.1).drop 33) < _ ∧
    _ < 2 * beVal (beBytes 32 (Ecdsa.order - beVal ((UInt8.ofNat (compact t).1 :: (compact t).2.1).drop 33)))
  rw [compact_low, beVal_beBytes hlt, beVal_beBytes (lt_of_le_of_lt (Nat.sub_le _ _) (by decide))]
  omega

omit [Hashes] in
theorem sign_low (m : Arr 32) (k : SK) (t : RSig) (ht : sign m k = t) : 2 * t.1.2.1 < Ecdsa.order := by
  have h := (C76_signatures_verify m k).2.1
  rw [ht] at h
  exact h

omit [Hashes] in
/-- **C83** The crate makes, of the two, the one with the smaller `s`. -/
theorem C83_low (m : Arr 32) (k : SK) :
    2 * beVal ((signatureBytes m k).1.drop 33) < Ecdsa.order ∧
      Ecdsa.order < 2 * beVal ((twinBytes (signatureBytes m k)).1.drop 33) := by
  have h := signatureBytes_eq m k
  generalize signatureBytes m k = sg at h
  generalize ht : Secp.sign m k = t at h
  exact low_of t sg (sign_low m k t ht) h

/-- **C83** A verified transaction with a single signature has a twin, made without any key, that
differs from it only in the signature, has other bytes of the same length and verifies too. -/
theorem C83_transaction (t : Transaction) (c : SingleSig) (n : Arr 32) (ha : t.auth = .standard (.single c))
    (hv : t.verifyOrigin = .ok n) :
    (∃ n', (withOriginSignature t c (twinBytes c.signature)).verifyOrigin = .ok n') ∧
    ∃ bs bs', t.encode = .ok bs ∧ (withOriginSignature t c (twinBytes c.signature)).encode = .ok bs' ∧
      bs ≠ bs' ∧ bs.length = bs'.length := by
  obtain ⟨hb, hv⟩ := (verifyOrigin_iff t n).1 hv
  obtain ⟨v, ch, a, am, pm, pcs, p⟩ := t
  dsimp only at ha
  subst ha
  obtain ⟨q, h1, h2, _⟩ := (single_verify_iff c _ 4 n).1 hv
  obtain ⟨g1, g2, _⟩ := C83_twin _ _ _ h1
  refine ⟨⟨_, (verifyOrigin_iff _ _).2 ⟨hb, (single_verify_iff _ _ 4 _).2 ⟨q, g1, h2, rfl⟩⟩⟩, _, _,
    (transaction_encode_iff _ _).2 ⟨⟨trivial, hb⟩, rfl⟩, (transaction_encode_iff _ _).2 ⟨⟨trivial, hb⟩, rfl⟩, ?_, ?_⟩
  · intro he
    simp only [transactionBytes, withOriginSignature, authBytes, spendingBytes, List.append_assoc,
      List.append_cancel_left_eq, List.cons_append, List.cons.injEq, true_and, List.nil_append] at he
    have := congrArg (List.take 65) he
    rw [List.take_left' c.signature.2, List.take_left' (twinBytes c.signature).2] at this
    exact g2 (Subtype.ext this.symm)
  · simp [transactionBytes, withOriginSignature, authBytes, spendingBytes, c.signature.2, (twinBytes c.signature).2]

theorem recovers_unsigned {typ : UInt8} {fee nonce : UInt64} (ks : List PK) (h : Arr 32) {fs : List AuthField}
    {n : Arr 32} (hr : Recovers typ fee nonce h fs ks n) (hn : fs.countP isSignature = 0) (h' : Arr 32) :
    Recovers typ fee nonce h' fs ks h' := by
  induction hr with
  | nil h => exact .nil h'
  | pk h n k fs ks _ ih => exact .pk h' h' k fs ks (ih (by simpa [isSignature] using hn))
  | msg h n s k fs ks _ _ _ => simp [isSignature] at hn

theorem recovers_twin {typ : UInt8} {fee nonce : UInt64} {s : Arr 65} {post : List AuthField}
    (hp : post.countP isSignature = 0) (pre : List AuthField) :
    ∀ {h n : Arr 32} {ks : List PK}, Recovers typ fee nonce h (pre ++ .msg s :: post) ks n →
    twinBytes s ≠ s ∧ ∃ n', Recovers typ fee nonce h (pre ++ .msg (twinBytes s) :: post) ks n' := by
  induction pre with
  | nil =>
    intro h n ks hr
    cases hr with
    | msg _ _ _ k _ ks h1 h2 =>
      obtain ⟨g1, g2, _⟩ := C83_twin _ _ _ h1
      exact ⟨g2, _, .msg _ _ _ _ _ _ g1 (recovers_unsigned _ _ h2 hp _)⟩
  | cons f pre ih =>
    intro h n ks hr
    cases hr with
    | pk _ _ k _ ks h2 =>
      obtain ⟨g, n', h3⟩ := ih h2
      exact ⟨g, n', .pk _ _ _ _ _ h3⟩
    | msg _ _ _ k _ ks h1 h2 =>
      obtain ⟨g, n', h3⟩ := ih h2
      exact ⟨g, n', .msg _ _ _ _ _ _ h1 h3⟩

omit [Hashes] in
/-- Fields in which one signature is another have other bytes, as many. -/
theorem fields_twin (pre post : List AuthField) (s s' : Arr 65) (h : s ≠ s') :
    ((pre ++ .msg s :: post).map fieldBytes).flatten ≠ ((pre ++ .msg s' :: post).map fieldBytes).flatten ∧
      ((pre ++ .msg s :: post).map fieldBytes).flatten.length =
        ((pre ++ .msg s' :: post).map fieldBytes).flatten.length := by
  constructor
  · intro he
    simp only [List.map_append, List.map_cons, List.flatten_append, List.flatten_cons, fieldBytes,
      List.append_cancel_left_eq, List.cons_append, List.cons.injEq, true_and] at he
    have := congrArg (List.take 65) he
    rw [List.take_left' s.2, List.take_left' s'.2] at this
    exact h (Subtype.ext this)
  · simp [fieldBytes, s.2, s'.2]

/-- **C83** So does a verified multi-sig transaction: its last signature can be replaced by the twin. -/
theorem C83_multisig (t : Transaction) (c : MultiSig) (n : Arr 32) (pre post : List AuthField) (s : Arr 65)
    (ha : t.auth = .standard (.multi c)) (hf : c.fields = pre ++ .msg s :: post)
    (hp : post.countP isSignature = 0) (hv : t.verifyOrigin = .ok n) :
    (∃ n', (withOriginFields t c (pre ++ .msg (twinBytes s) :: post)).verifyOrigin = .ok n') ∧
    ∀ bs, t.encode = .ok bs → ∃ bs', (withOriginFields t c (pre ++ .msg (twinBytes s) :: post)).encode = .ok bs' ∧
      bs ≠ bs' ∧ bs.length = bs'.length := by
  obtain ⟨hb, hv⟩ := (verifyOrigin_iff t n).1 hv
  obtain ⟨v, ch, a, am, pm, pcs, p⟩ := t
  dsimp only at ha
  subst ha
  obtain ⟨ks, h1, h2, h3, h4, h5⟩ := (multi_verify_iff c _ 4 n).1 hv
  rw [hf] at h1 h2 h3
  obtain ⟨g, n', h1'⟩ := recovers_twin hp pre h1
  refine ⟨⟨n', (verifyOrigin_iff _ _).2 ⟨hb, (multi_verify_iff _ _ 4 _).2 ⟨ks, h1', ?_, ?_, h4, h5⟩⟩⟩, fun bs he => ?_⟩
  · simpa [isSignature, List.countP_append, List.countP_cons] using h2
  · simpa [isSignature, List.countP_append, List.countP_cons] using h3
  · obtain ⟨⟨hs, _⟩, rfl⟩ := (transaction_encode_iff _ _).1 he
    have hl : (pre ++ .msg (twinBytes s) :: post).length = c.fields.length := by simp [hf]
    have hs' : c.fields.length < 2 ^ 32 := hs
    obtain ⟨f1, f2⟩ := fields_twin pre post s (twinBytes s) (Ne.symm g)
    refine ⟨_, (transaction_encode_iff _ _).2 ⟨⟨?_, hb⟩, rfl⟩, ?_, ?_⟩
    · show (pre ++ .msg (twinBytes s) :: post).length < 2 ^ 32
      rw [hl]; exact hs'
    · intro he
      simp only [transactionBytes, withOriginFields, authBytes, spendingBytes, List.append_assoc, hl,
        List.append_cancel_left_eq, List.cons_append, List.cons.injEq, true_and, List.nil_append] at he
      rw [← hf] at f1 f2
      exact f1 (List.append_inj he f2).1
    · rw [← hf] at f2
      simp only [transactionBytes, withOriginFields, authBytes, spendingBytes, List.length_append, List.length_cons,
        List.length_nil, hl, f2]

/-- **C83** In a sponsored transaction that verifies it is the sponsor's signature that can be replaced. -/
theorem C83_sponsored (t : Transaction) (o : Spending) (q : SingleSig) (h : Arr 32)
    (ha : t.auth = .sponsored o (.single q)) (hi : t.initialHash = .ok h) (hv : t.auth.verify h = .ok ()) :
    (withSponsorSignature t o q (twinBytes q.signature)).initialHash = .ok h ∧
    (withSponsorSignature t o q (twinBytes q.signature)).auth.verify h = .ok () ∧
    (withSponsorSignature t o q (twinBytes q.signature)).verifyOrigin = t.verifyOrigin ∧
    ∀ bs, t.encode = .ok bs → ∃ bs', (withSponsorSignature t o q (twinBytes q.signature)).encode = .ok bs' ∧
      bs ≠ bs' ∧ bs.length = bs'.length := by
  have hor := C53_origin_independent_of_sponsor t o _ (.single { q with signature := twinBytes q.signature }) ha
  obtain ⟨hb, rfl⟩ := (initialHash_iff t h).1 hi
  obtain ⟨v, ch, a, am, pm, pcs, p⟩ := t
  dsimp only at ha
  subst ha
  obtain ⟨n, n', ho, hq⟩ := (C54_sponsored_iff o (.single q) _).1 hv
  obtain ⟨k, h1, h2, _⟩ := (single_verify_iff q n 5 n').1 hq
  obtain ⟨g1, g2, _⟩ := C83_twin _ _ _ h1
  refine ⟨(initialHash_iff _ _).2 ⟨hb, rfl⟩, (C54_sponsored_iff _ _ _).2 ⟨n, _, ho,
    (single_verify_iff _ n 5 _).2 ⟨k, g1, h2, rfl⟩⟩, hor, fun bs he => ?_⟩
  obtain ⟨⟨hs, _⟩, rfl⟩ := (transaction_encode_iff _ _).1 he
  refine ⟨_, (transaction_encode_iff _ _).2 ⟨⟨hs, hb⟩, rfl⟩, ?_, ?_⟩
  · intro he
    simp only [transactionBytes, withSponsorSignature, authBytes, spendingBytes, List.append_assoc,
      List.append_cancel_left_eq, List.cons_append, List.cons.injEq, true_and, List.nil_append] at he
    have := congrArg (List.take 65) he
    rw [List.take_left' q.signature.2, List.take_left' (twinBytes q.signature).2] at this
    exact g2 (Subtype.ext this.symm)
  · simp [transactionBytes, withSponsorSignature, authBytes, spendingBytes, q.signature.2, (twinBytes q.signature).2]

end

/-! ## The hypotheses are satisfiable -/

section
attribute [local instance] Concrete.realHashes realSecp

/-- The signed transfer of C76. -/
def exRealSigned : Outcome TxError Transaction :=
  exRealTransfer.transaction >>= fun t => t.sign ⟨7, by decide⟩

/-- It has a single signature and verifies, as does its twin; the two signatures differ. -/
example : (match exRealSigned with
    | .ok t =>
      match t.auth with
      | .standard (.single c) =>
        (match t.verifyOrigin with | .ok _ => true | _ => false) &&
        (match (withOriginSignature t c (twinBytes c.signature)).verifyOrigin with | .ok _ => true | _ => false) &&
          decide ((twinBytes c.signature).1 ≠ c.signature.1)
      | _ => false
    | _ => false) = true := by decide +kernel

/-- A key is the key of exactly one secret key. -/
example : ∃! d : SK, pub d = pub ⟨7, by decide⟩ := C82_key_pairs _

/-- The signature of any message is valid for the signer's key. -/
example (m : Arr 32) (d : SK) (t : RSig) (ht : sign m d = t) :
    Ecdsa.Verifies G (.some _ _ (key_nonsingular (pub d))) (beVal m.1) t.1.1 t.1.2.1 := by
  have h := (C76_signatures_verify m d).2.2.1
  rw [ht] at h
  exact (C82_recover_iff m _ _ t.2 _).1 ⟨t.1.2.2, h⟩

end

end Stacks.Tx
