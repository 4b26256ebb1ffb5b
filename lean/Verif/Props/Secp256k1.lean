import Verif.Concrete.Bip32Lawful
import Verif.Spec.Ecdsa
import Verif.Props.Wallet
import Verif.Props.Transaction

/-! # C76: nothing is assumed of the signature scheme if it is ECDSA over secp256k1 -/

namespace Stacks.Tx
open Stacks.Concrete.Ecdsa Stacks.Spec WeierstrassCurve

section
attribute [local instance] Concrete.realHashes Concrete.toySecp

/-- The parts of an example transfer have encodings (used below). -/
theorem exParts_encodable : EncodablePayload (.tokenTransfer ⟨exTransfer.address, 5, "hello".toList⟩) ∧
    exConditions.length < 2 ^ 32 ∧ ∀ c ∈ exConditions, EncodableCondition c :=
  ⟨⟨(wf_encodable_tx _ exTx_wf).2.2.2.1, by decide +kernel⟩, exTx_wf.2.1, (wf_encodable_tx _ exTx_wf).2.2.1⟩

end

instance : Fact Ecdsa.fieldPrime.Prime := ⟨p_prime⟩

/-- A signature made with a nonce verifies. -/
theorem signWith_verifies (m : Nat) (d : SK) {k : Nat} {t : RSig} (h : signWith m d.1 k = some t) :
    Ecdsa.Verifies G (d.1 • G) m t.1.1 t.1.2.1 ∧ 2 * t.1.2.1 < n := by
  unfold signWith at h
  split at h
  · cases h
  rename_i hk
  have hk0 : 0 < k := by omega
  have hkn : k < n := by omega
  have hR := mulPt_rep base_rep (k := k) (lt_trans hkn n_lt)
  split at h
  · cases h
  rename_i x y hm
  rw [hm] at hR
  simp only [force_eq] at h
  split at h
  · cases h
  rename_i hrs
  have hr : x % n ≠ 0 := fun h => hrs (Or.inl h)
  have hk' : (k : ZMod n) ≠ 0 := fun h => by rw [castn_zero_iff hkn] at h; omega
  have hi := inv_cast (m := n) (by decide) (by decide) hk'
  have hs0 : inv n k * ((m + x % n * d.1) % n) % n ≠ 0 := fun h => hrs (Or.inr h)
  have hscast : ((inv n k * ((m + x % n * d.1) % n) % n : Nat) : ZMod n) * k = m + (x : ZMod n) * d.1 := by
    simp only [Nat.cast_add, Nat.cast_mul, ZMod.natCast_mod, hi]
    field_simp
  have hsn : inv n k * ((m + x % n * d.1) % n) % n < n := mod_n_lt _
  generalize inv n k * ((m + x % n * d.1) % n) % n = s at h hs0 hscast hsn
  -- both signs of `s` give the point `k • G` up to sign
  have core : ∀ (s' e : Nat) (x' y' : Nat), 0 < s' → s' < n → x' % n = x % n → RepA (some (x', y')) (e • G) →
      (s' : ZMod n) * e = m + (x : ZMod n) * d.1 → Ecdsa.Verifies G (d.1 • G) m (x % n) s' := by
    intro s' e x' y' h0 h1 hx' hRe heq
    refine ⟨Nat.pos_of_ne_zero hr, mod_n_lt _, h0, h1, fun u v hu hv => ?_⟩
    have hs' : (s' : ZMod n) ≠ 0 := fun h => by rw [castn_zero_iff h1] at h; omega
    have hu' : (u : ZMod n) * s' = m := by
      have := (ZMod.natCast_eq_natCast_iff (u * s') m n).2 hu
      push_cast at this; exact this
    have hv' : (v : ZMod n) * s' = x := by
      have := (ZMod.natCast_eq_natCast_iff (v * s') (x % n) n).2 hv
      rw [ZMod.natCast_mod] at this
      push_cast at this; exact this
    have hpt : u • G + v • (d.1 • G) = e • G := by
      rw [← mul_nsmul', ← add_nsmul]
      apply smul_eq
      push_cast
      have : (s' : ZMod n) * (u + v * d.1) = (s' : ZMod n) * e := by
        rw [heq]; linear_combination hu' + d.1 * hv'
      exact mul_left_cancel₀ hs' this
    obtain ⟨hQ, hE, hx, hy⟩ := repA_some hRe
    refine ⟨_, _, hQ, hpt.trans hE, ?_⟩
    show (ZMod.val ((x' : Nat) : F)) % n = x % n % n
    rw [ZMod.val_natCast, Nat.mod_eq_of_lt hx, hx', Nat.mod_mod]
  split at h
  · simp only [Option.some.injEq] at h
    subst h
    rename_i hbig
    dsimp only
    rw [Nat.mod_mod, Nat.mod_eq_of_lt (show n - s < n by omega)]
    have hy0 := ne_zero_of_order hk0 hkn hR
    have hR' := neg_rep hy0 hR
    rw [← neg_smul_G hkn.le] at hR'
    refine ⟨core (n - s) (n - k) x _ (by omega) (by omega) rfl hR' ?_, ?_⟩
    · rw [castn_sub hsn.le, castn_sub hkn.le]; linear_combination hscast
    · have : n % 2 = 1 := by decide
      omega
  · simp only [Option.some.injEq] at h
    subst h
    rename_i hbig
    dsimp only
    rw [Nat.mod_mod, Nat.mod_eq_of_lt hsn]
    refine ⟨core s k x y (Nat.pos_of_ne_zero hs0) hsn rfl hR hscast, ?_⟩
    have : n % 2 = 1 := by decide
    omega

/-- **C76** The constants are those of secp256k1, and the base point has the order it should have. -/
theorem C76_curve : Ecdsa.fieldPrime.Prime ∧ Ecdsa.order.Prime ∧
    (∃ h, G = Affine.Point.some (W' := Ecdsa.curve) (Ecdsa.baseX : ZMod Ecdsa.fieldPrime) Ecdsa.baseY h) ∧
    addOrderOf G = Ecdsa.order :=
  ⟨p_prime, n_prime, ⟨_, rfl⟩, addOrderOf_G⟩

/-- **C76** The executable signing function makes valid ECDSA signatures with low `s`, for every
message and key; and the executable recovery returns the signer's public key, whose coordinates are
those of `d • G`. -/
theorem C76_signatures_verify (m : Arr 32) (d : SK) :
    Ecdsa.Verifies G (d.1 • G) (beVal m.1) (sign m d).1.1 (sign m d).1.2.1 ∧ 2 * (sign m d).1.2.1 < Ecdsa.order ∧
      recover m (sign m d) = .ok (pub d) ∧
      ∃ h, d.1 • G = Affine.Point.some (W' := Ecdsa.curve) ((pub d).1.1 : ZMod Ecdsa.fieldPrime) (pub d).1.2 h := by
  have h : ∃ k, signWith (beVal m.1) d.1 k = some (sign m d) := by
    simp only [sign, force_eq]
    exact signLoop_eq (beVal m.1) d.1 d.2.1 d.2.2 16 _ _
  obtain ⟨k, hk⟩ := h
  obtain ⟨h1, h2⟩ := signWith_verifies _ d hk
  obtain ⟨hQ, hE, _⟩ := repA_some (pub_rep d)
  exact ⟨h1, h2, recover_sign m d, hQ, hE⟩

attribute [local instance] realSecp
local instance : Secp.Lawful := realLawful

section
variable [Hashes]

/-- **C76** A transaction created for the key of `k` and signed with `k` verifies. -/
theorem C76_sign_then_verify (t : Transaction) (k : SK) (fee nonce : UInt64) (mode : C32.Mode) (c : SingleSig)
    (hnew : (SingleSig.new (pub k) fee nonce mode : Outcome TxError SingleSig) = .ok c)
    (hc : t.auth.origin = .single c) (hb : EncodableBody t) :
    ∃ t' n, t.sign k = .ok t' ∧ t'.verifyOrigin = .ok n := by
  obtain ⟨s, _, h1, h2, _⟩ := C47_sign_then_verify t (pub k) fee nonce mode c k hnew hc hb
  exact ⟨s.tx, s.hash, h1, h2 rfl⟩

/-- **C76** A built token transfer signed with the sender's key verifies. -/
theorem C76_transfer_verifies (b : STXTokenTransfer) (h : b.sponsored = false)
    (hp : EncodablePayload (.tokenTransfer ⟨b.recipient, b.amount, b.memo⟩))
    (hc : b.postConditions.length < 2 ^ 32 ∧ ∀ c ∈ b.postConditions, EncodableCondition c) :
    ∃ t n, (b.transaction >>= fun t => t.sign b.sender) = .ok t ∧ t.verifyOrigin = .ok n :=
  C56_sign_verifies b h hp hc

/-- **C76** A built contract call signed with the sender's key verifies. -/
theorem C76_call_verifies (b : STXContractCall) (t : Transaction) (ht : b.transaction = .ok t)
    (hb : EncodableBody t) : ∃ t' n, t.sign b.sender = .ok t' ∧ t'.verifyOrigin = .ok n :=
  C57_sign_verifies b t ht hb

/-- **C76** Several participants of whom `m` sign, in order, make a transaction that verifies. -/
theorem C76_multisig_flow (t : Transaction) (ps : List Participant) (fee nonce : UInt64) (m : UInt8)
    (mode : C32.Mode) (c : MultiSig)
    (hnew : (MultiSig.new (ps.map Participant.key) fee nonce m mode : Outcome TxError MultiSig) = .ok c)
    (hc : t.auth.origin = .multi c) (hb : EncodableBody t) (hm : ps.countP Participant.isSigner = m.toNat) :
    ∃ s, (Signer.new t >>= fun s => walk s ps) = .ok s ∧ s.tx.verifyOrigin = .ok s.hash := by
  have hlt := m.toNat_lt
  obtain ⟨s, h1, h2, _⟩ := C50_multisig_flow t ps fee nonce m mode c true hnew hc hb (by omega) (by omega) (fun _ => hm)
  refine ⟨s, ?_, h2⟩
  have e := (signer_new_iff t _).2 ⟨hb, rfl⟩
  rw [e] at h1 ⊢
  exact h1

/-- **C76** Origin then sponsor: the sponsored transaction verifies. -/
theorem C76_sponsored (t : Transaction) (p : Spending) (ko ks : SK)
    (fee nonce fee' nonce' : UInt64) (mode mode' : C32.Mode) (c q : SingleSig)
    (ha : t.auth = .sponsored (.single c) p) (hb : EncodableBody t)
    (hc : (SingleSig.new (pub ko) fee nonce mode : Outcome TxError SingleSig) = .ok c)
    (hq : (SingleSig.new (pub ks) fee' nonce' mode' : Outcome TxError SingleSig) = .ok q) :
    ∃ t1 s s' h, t.sign ko = .ok t1 ∧ Signer.newSponsor t1 (.single q) = .ok s ∧ s.signSponsor ks = .ok s' ∧
      s'.tx.initialHash = .ok h ∧ s'.tx.auth.verify h = .ok () :=
  C53_end_to_end t p ko ks fee nonce fee' nonce' mode mode' c q ha hb hc hq

/-- **C76** Different well-formed transactions have different encodings. -/
theorem C76_encoding_injective (t t' : Transaction) (h : WellFormedTransaction t) (h' : WellFormedTransaction t')
    (hm : MemoUnpadded t.payload) (hm' : MemoUnpadded t'.payload) (he : t.encode = t'.encode) : t = t' :=
  C43_injective t t' h h' hm hm' he

open Stacks.Wallet in
/-- **C76** An account of a wallet (BIP 32) has a private key; a transfer built and signed with it
verifies, and its signer is the hash in the account's address. -/
theorem C76_account_transfer (phrases : Concrete.Bip32.Phrases) : letI : Bip := Concrete.Bip32.realBip phrases
    ∀ (a : StacksAccount) (v : C32.Version), ∃ k, a.privateKey = .ok k ∧ a.publicKey = .ok (pub k) ∧
      ∀ b : STXTokenTransfer, b.sponsored = false → b.sender = k →
        EncodablePayload (.tokenTransfer ⟨b.recipient, b.amount, b.memo⟩) →
        (b.postConditions.length < 2 ^ 32 ∧ ∀ c ∈ b.postConditions, EncodableCondition c) →
        ∃ t n s, (b.transaction >>= fun t => t.sign k) = .ok t ∧ t.verifyOrigin = .ok n ∧
          a.getAddress v = .ok s ∧ C32.addressFromStr s = .ok ⟨signerOf t.auth.origin, versionByte v⟩ := by
  let _ : Bip := Concrete.Bip32.realBip phrases
  have : Bip.Lawful := Concrete.Bip32.realBipLawful phrases
  intro a v
  obtain ⟨k, h1, h2⟩ := C61_private_key_exists a
  refine ⟨k, h1, h2, fun b hs hb hp hc => ?_⟩
  obtain ⟨t, n, s, g1, g2, g3, g4, _⟩ := C61_account_transfer a b k h1 hs hb hp hc v
  exact ⟨t, n, s, g1, g2, g3, g4⟩

end

/-! ## The hypotheses are satisfiable -/

attribute [local instance] Concrete.realHashes

/-- A transfer sent with the key 7. -/
def exRealTransfer : STXTokenTransfer :=
  { recipient := exTransfer.address, amount := 5, sender := ⟨7, by decide⟩, network := .mainnet,
    memo := "hello".toList, postConditions := exConditions }

example : ∃ t n, (exRealTransfer.transaction >>= fun t => t.sign ⟨7, by decide⟩) = .ok t ∧ t.verifyOrigin = .ok n :=
  C76_transfer_verifies exRealTransfer rfl exParts_encodable.1 exParts_encodable.2

/-- The public key of the key 1 is the base point. -/
example : (pub ⟨1, by decide⟩).1 = (Ecdsa.baseX, Ecdsa.baseY) := by decide +kernel

end Stacks.Tx
