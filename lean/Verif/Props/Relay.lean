import Verif.Spec.Relay
import Verif.Props.Binding
import Verif.Props.Node

/-! # Property C132: passing a transaction from one signer to the next -/

namespace Stacks.Tx
open Stacks.Spec Stacks.Clarity

section
variable [Secp] [Hashes]

theorem walk_append (a b : List Participant) : ∀ s : Signer, walk s (a ++ b) = (walk s a >>= fun s' => walk s' b) := by
  induction a with
  | nil => intro s; rfl
  | cons p a ih =>
    intro s
    cases p with
    | signs k =>
      rw [List.cons_append, walk, walk]
      cases s.signOrigin k with
      | ok s' => exact ih s'
      | err e => rfl
      | panic => rfl
    | absent k =>
      rw [List.cons_append, walk, walk]
      cases s.appendOrigin k with
      | ok s' => exact ih s'
      | err e => rfl
      | panic => rfl

/-- A signer as `new` makes it, but for the hash. -/
def AsNew (s : Signer) : Prop :=
  s.originSigned = false ∧ s.verifyOversign = true ∧ s.verifyOverlap = true ∧ EncodableBody s.tx

theorem asNew_renew {s : Signer} (h : AsNew s) :
    (Signer.new s.tx >>= fun s1 => .ok { s1 with hash := s.hash }) = .ok s := by
  obtain ⟨h1, h2, h3, h4⟩ := h
  rw [(signer_new_iff s.tx _).2 ⟨h4, rfl⟩]
  obtain ⟨t, x, a, b, c⟩ := s
  simp only [] at h1 h2 h3
  subst h1 h2 h3
  rfl

theorem asNew_walk (ps : List Participant) : ∀ s s' : Signer, AsNew s → walk s ps = .ok s' → AsNew s' := by
  induction ps with
  | nil => intro s s' h hw; cases hw; exact h
  | cons p ps ih =>
    intro s s' h hw
    cases p with
    | signs k =>
      rw [walk, Outcome.bind_eq_ok] at hw
      obtain ⟨s1, h1, h2⟩ := hw
      obtain ⟨_, _, _, rfl⟩ := (signOrigin_iff _ _ _).1 h1
      refine ih (s.withOrigin k) s' ⟨h.1, h.2.1, h.2.2.1, (sameBody_setOrigin s.tx _ ?_).encodable.2 h.2.2.2⟩ h2
      cases s.tx.auth.origin <;> rfl
    | absent k =>
      rw [walk, Outcome.bind_eq_ok] at hw
      obtain ⟨s1, h1, h2⟩ := hw
      obtain ⟨_, _, _, rfl⟩ := (appendOrigin_iff _ _ _).1 h1
      refine ih (s.withOriginKey k) s' ⟨h.1, h.2.1, h.2.2.1, (sameBody_setOrigin s.tx _ ?_).encodable.2 h.2.2.2⟩ h2
      cases s.tx.auth.origin <;> rfl

theorem relay_eq (gs : List (List Participant)) : ∀ s : Signer, AsNew s → relay s gs = walk s gs.flatten := by
  induction gs with
  | nil => intro s _; rfl
  | cons g gs ih =>
    intro s h
    rw [relay, List.flatten_cons, walk_append]
    have e := asNew_renew h
    obtain ⟨s1, hs1, e⟩ := Outcome.bind_eq_ok.1 e
    rw [hs1, Outcome.ok_bind, Outcome.ok.inj e]
    cases hw : walk s g with
    | ok s' => exact ih s' (asNew_walk g s s' h hw)
    | err e => rfl
    | panic => rfl

/-- **C132** Passing a transaction on from signer to signer, with the hash at which the one before ended, is the
same as one signer for all: the same transaction, the same error, whatever the groups do. -/
theorem C132_relay (t : Transaction) (gs : List (List Participant)) :
    (Signer.new t >>= fun s => relay s gs) = (Signer.new t >>= fun s => walk s gs.flatten) := by
  cases hn : Signer.new t with
  | err e => rfl
  | panic => rfl
  | ok s =>
    obtain ⟨hb, rfl⟩ := (signer_new_iff t s).1 hn
    exact relay_eq gs _ ⟨rfl, rfl, rfl, hb⟩

/-- **C132** So m signatures of the members, made in groups in order with a signer each, verify. -/
theorem C132_relay_verifies [Secp.Lawful] (t : Transaction) (gs : List (List Participant)) (fee nonce : UInt64)
    (m : UInt8) (mode : C32.Mode) (c : MultiSig)
    (hnew : (MultiSig.new (gs.flatten.map Participant.key) fee nonce m mode : Outcome TxError MultiSig) = .ok c)
    (hc : t.auth.origin = .multi c) (hb : EncodableBody t) (hm : gs.flatten.countP Participant.isSigner = m.toNat) :
    ∃ s, (Signer.new t >>= fun s => relay s gs) = .ok s ∧ s.tx.verifyOrigin = .ok s.hash := by
  obtain ⟨s, h1, h2, _⟩ := C50_multisig_flow t gs.flatten fee nonce m mode c true hnew hc hb (by omega)
    (by rw [hm]; exact m.toNat_lt) (fun _ => hm)
  refine ⟨s, ?_, h2⟩
  rw [C132_relay, ← h1, (signer_new_iff t _).2 ⟨hb, rfl⟩]
  rfl

/-- **C132** One signer can do both parts of a sponsored transaction: `sign_origin` and then `sign_sponsor`. -/
theorem C132_both_parts [Secp.Lawful] (t : Transaction) (ko ks : Secp.SK) (fee nonce fee' nonce' : UInt64)
    (mode mode' : C32.Mode) (c q : SingleSig) (ha : t.auth = .sponsored (.single c) (.single q)) (hb : EncodableBody t)
    (hc : (SingleSig.new (Secp.pub ko) fee nonce mode : Outcome TxError SingleSig) = .ok c)
    (hq : (SingleSig.new (Secp.pub ks) fee' nonce' mode' : Outcome TxError SingleSig) = .ok q) :
    ∃ s h, (Signer.new t >>= fun s => s.signOrigin ko >>= fun s => s.signSponsor ks) = .ok s ∧
      s.tx.initialHash = .ok h ∧ s.tx.auth.verify h = .ok () := by
  have ho : t.auth.origin = .single c := by rw [ha]; rfl
  obtain ⟨s, h1, _, h2, _⟩ := C47_sign_then_verify t _ fee nonce mode c ko hc ho hb
  have hv := h2 rfl
  rw [(signer_new_iff t _).2 ⟨hb, rfl⟩, Outcome.ok_bind] at h1 ⊢
  obtain ⟨_, _, _, e⟩ := (signOrigin_iff _ _ _).1 h1
  have hauth : ∃ o, s.tx.auth = .sponsored o (.single q) := by
    rw [e]
    refine ⟨withSignature t.auth.origin ?_, ?_⟩
    · exact Signer.originSig ⟨t, Hashes.sha512_256 (signingPreimage t), false, true, true⟩ ko
    · show t.auth.setOrigin _ = _
      rw [ha]; rfl
  obtain ⟨o, hauth⟩ := hauth
  obtain ⟨hm, hfee, hnon, hsig, hns⟩ := (single_new_iff _ fee' nonce' mode' q).1 hq
  have hmode : q.mode = .p2pkh ∨ q.mode = .p2wpkh := by
    rw [hm]; cases mode' <;> first | exact .inl rfl | exact .inr rfl | cases hsig
  have h3 := (signSponsor_iff s _ ks).2 ⟨o, .single q, hauth, fun _ => by
    show (if q.signature = noSignature then 0 else 1) < 1
    rw [if_pos hns]; omega, hmode, rfl⟩
  obtain ⟨hb', hvo⟩ := (verifyOrigin_iff s.tx s.hash).1 hv
  have hsb : SameBody (s.withSponsor o (.single q) ks).tx s.tx :=
    ⟨by rw [hauth]; rfl, rfl, rfl, rfl, rfl, rfl, rfl⟩
  rw [hauth] at hvo
  refine ⟨s.withSponsor o (.single q) ks, Hashes.sha512_256 (signingPreimage s.tx), ?_, ?_, ?_⟩
  · rw [h1, Outcome.ok_bind]; exact h3
  · rw [initialHash_iff, hsb.preimage]; exact ⟨hsb.encodable.2 hb', rfl⟩
  · show (Auth.sponsored o _).verify _ = _
    rw [C54_sponsored_iff]
    refine ⟨s.hash, (s.withSponsor o (.single q) ks).hash, hvo, ?_⟩
    show SingleSig.verify _ _ 5 = _
    rw [single_verify_iff]
    refine ⟨Secp.pub ks, ?_, ?_, rfl⟩
    · exact recovers_signature _ _
    · show keySigner q.mode _ = some q.signer
      rw [hm]; exact hsig

theorem recovers_split {typ : UInt8} {fee nonce : UInt64} (fs gs : List AuthField) : ∀ {h n : Arr 32} {ks : List Secp.PK},
    Recovers typ fee nonce h (fs ++ gs) ks n →
    ∃ ks1 ks2 h1, ks = ks1 ++ ks2 ∧ Recovers typ fee nonce h fs ks1 h1 ∧ Recovers typ fee nonce h1 gs ks2 n := by
  induction fs with
  | nil => intro h n ks a; exact ⟨[], ks, h, rfl, .nil _, a⟩
  | cons f fs ih =>
    intro h n ks a
    cases a with
    | pk _ _ k _ ks a =>
      obtain ⟨ks1, ks2, h1, rfl, a1, a2⟩ := ih a
      exact ⟨k :: ks1, ks2, h1, rfl, .pk _ _ _ _ _ a1, a2⟩
    | msg _ _ s k _ ks hk a =>
      obtain ⟨ks1, ks2, h1, rfl, a1, a2⟩ := ih a
      exact ⟨k :: ks1, ks2, h1, rfl, .msg _ _ _ _ _ _ hk a1, a2⟩

end

section
open Stacks.Concrete.Ecdsa
attribute [local instance] realSecp
local instance relayLawful : Secp.Lawful := realLawful
variable [Hashes]

/-- The same fields give the same keys from two hashes only if the hashes are equal, or the strings first
signed meet. -/
theorem two_hashes {typ : UInt8} {fee nonce : UInt64} {h h' n n' : Arr 32} {fs : List AuthField} {ks : List Secp.PK}
    (a : Recovers typ fee nonce h fs ks n) (b : Recovers typ fee nonce h' fs ks n') (hc : 0 < fs.countP isSignature) :
    h = h' ∨ DigestsMeet (presignInput h typ fee nonce) (presignInput h' typ fee nonce) := by
  by_cases hi : presignInput h typ fee nonce = presignInput h' typ fee nonce
  · exact .inl (presignInput_inj hi).1
  obtain ⟨sig, k, a1, a2, a3⟩ := recovers_first_at a hc
  obtain ⟨sig', k', b1, b2, b3⟩ := recovers_first_at b hc
  rw [a1] at b1
  obtain rfl : sig = sig' := by simpa using b1
  rw [a3] at b3
  obtain rfl : k = k' := by simpa using b3
  exact .inr ⟨hi, C99_one_digest _ _ _ k a2 b2⟩

omit [Hashes] in
theorem count_of_map {gs : List AuthField} {ps : List (@Participant realSecp)}
    (h : gs.map isSignature = ps.map Participant.isSigner) :
    gs.countP isSignature = ps.countP Participant.isSigner := by
  have e : (gs.map isSignature).countP id = (ps.map Participant.isSigner).countP id := by rw [h]
  rw [List.countP_map, List.countP_map] at e
  exact e

/-- **C132** A signer made with `new` for a transaction that others have signed begins again at the first hash.
If a first group of members signs, and a second group, with at least one that signs, goes on with such a signer, then
all their calls succeed, and yet the transaction verifies only if the first group left the hash where it began (as
when none of them signed), or two explicit strings have SHA-512/256 that meet, or the recovered keys are others with
the same address. -/
theorem C132_start_anew (t : Transaction) (g g' : List Participant) (fee nonce : UInt64) (m : UInt8)
    (mode : C32.Mode) (c : MultiSig)
    (hnew : (MultiSig.new ((g ++ g').map Participant.key) fee nonce m mode : Outcome TxError MultiSig) = .ok c)
    (hc : t.auth.origin = .multi c) (hb : EncodableBody t)
    (hm : (g ++ g').countP Participant.isSigner = m.toNat) (hone : 0 < g'.countP Participant.isSigner) :
    ∃ s s' c', (Signer.new t >>= fun s => walk s g) = .ok s ∧ startAnew s g' = .ok s' ∧
      s'.tx.auth.origin = .multi c' ∧ ∀ n, s'.tx.verifyOrigin = .ok n →
        s.hash = Hashes.sha512_256 (signingPreimage t) ∨
        DigestsMeet (presignInput s.hash 4 fee nonce) (presignInput (Hashes.sha512_256 (signingPreimage t)) 4 fee nonce) ∨
        ∃ ks, Recovers 4 fee nonce (Hashes.sha512_256 (signingPreimage t)) c'.fields ks n ∧
          AccountsCollide mode mode (multisigScriptSpec m.toNat ks)
            (multisigScriptSpec m.toNat ((g ++ g').map Participant.key)) := by
  obtain ⟨⟨h175, hlen⟩, hsig, hce⟩ := (multi_new_iff _ fee nonce m mode c).1 hnew
  have hfields : c.fields = [] := by rw [hce]
  have hreq : c.required = m := by rw [hce]
  have hmo : c.mode = mode := by rw [hce]
  have hfee : c.fee = fee := by rw [hce]
  have hnon : c.nonce = nonce := by rw [hce]
  have hmode : c.mode = .p2sh ∨ c.mode = .p2wsh := by
    rw [hmo]; cases mode <;> first | exact .inl rfl | exact .inr rfl | cases hsig
  rw [List.countP_append] at hm
  obtain ⟨s, gs, h1, h2, h3, h4, f1, f2, f3⟩ := walk_ok g
    ⟨t, Hashes.sha512_256 (signingPreimage t), false, true, true⟩ c hc hmode (by simp)
    (fun _ => by rw [hfields, hreq, List.countP_nil]; omega)
  rw [hfields, List.nil_append] at h2
  have hsb : SameBody s.tx t := by
    rw [h2]; exact sameBody_setOrigin t _ (by rw [hc]; rfl)
  have hb' := hsb.encodable.2 hb
  have ho : s.tx.auth.origin = .multi { c with fields := gs } := by
    rw [h2]; show (t.auth.setOrigin _).origin = _
    rw [origin_setOrigin]
  have hcg := count_of_map h4
  obtain ⟨s', gs', k1, k2, k3, k4, _⟩ := walk_ok g'
    ⟨s.tx, Hashes.sha512_256 (signingPreimage s.tx), false, true, true⟩ { c with fields := gs } ho hmode (by simp)
    (fun _ => by
      show gs.countP isSignature + _ ≤ c.required.toNat
      rw [hreq]; omega)
  have hsb' : SameBody s'.tx s.tx := by
    rw [k2]; exact sameBody_setOrigin s.tx _ (by rw [ho]; rfl)
  have hcg' := count_of_map k4
  have ho' : s'.tx.auth.origin = .multi { c with fields := gs ++ gs' } := by
    rw [k2]; show (s.tx.auth.setOrigin _).origin = _
    rw [origin_setOrigin]
  refine ⟨s, s', _, ?_, ?_, ho', fun n hv => ?_⟩
  · rw [(signer_new_iff t _).2 ⟨hb, rfl⟩]; exact h1
  · rw [startAnew, (signer_new_iff s.tx _).2 ⟨hb', rfl⟩]; exact k1
  · obtain ⟨_, hv⟩ := (verifyOrigin_iff _ n).1 hv
    rw [ho', hsb'.preimage, hsb.preimage] at hv
    replace hv : MultiSig.verify { c with fields := gs ++ gs' } _ 4 = .ok n := hv
    rw [multi_verify_iff] at hv
    obtain ⟨ks, r, _, _, _, hk⟩ := hv
    replace r : Recovers 4 fee nonce (Hashes.sha512_256 (signingPreimage t)) (gs ++ gs') ks n := by
      rw [← hfee, ← hnon]; exact r
    replace hk : scriptSigner mode m.toNat ks = some c.signer := by rw [← hmo, ← hreq]; exact hk
    by_cases he : ks = (g ++ g').map Participant.key
    · subst he
      obtain ⟨ks1, ks2, x, e, r1, r2⟩ := recovers_split gs gs' r
      replace h3 : Recovers 4 fee nonce (Hashes.sha512_256 (signingPreimage t)) gs (g.map Participant.key) s.hash := by
        rw [← hfee, ← hnon]; exact h3
      obtain ⟨e1, rfl⟩ := recovers_det r1 h3
      subst e1
      rw [List.map_append] at e
      have e2 := List.append_cancel_left e
      subst e2
      replace k3 : Recovers 4 fee nonce (Hashes.sha512_256 (signingPreimage t)) gs' (g'.map Participant.key) s'.hash := by
        rw [← hfee, ← hnon, ← hsb.preimage]; exact k3
      rcases two_hashes r2 k3 (by omega) with h | h
      · exact .inl h
      · exact .inr (.inl h)
    · exact .inr (.inr ⟨ks, r, accounts_collide h175 h175 hk hsig he⟩)

/-- **C132** The sponsor's signature made with a signer of `new` instead of `new_sponser`, for a transaction whose
origin is signed, is over the first hash instead of the origin's: the call succeeds, and the transaction verifies only
if the two hashes are the same, or two explicit strings have SHA-512/256 that meet, or the recovered key is another
with the same hash. -/
theorem C132_new_for_sponsor (t : Transaction) (o : Spending) (n : Arr 32) (k : Secp.SK) (fee nonce : UInt64)
    (mode : C32.Mode) (q : SingleSig) (ha : t.auth = .sponsored o (.single q)) (hv : t.verifyOrigin = .ok n)
    (hq : (SingleSig.new (Secp.pub k) fee nonce mode : Outcome TxError SingleSig) = .ok q) :
    ∃ s q' h, (Signer.new t >>= fun s => s.signSponsor k) = .ok s ∧ s.tx.auth = .sponsored o (.single q') ∧
      s.tx.initialHash = .ok h ∧ (s.tx.auth.verify h = .ok () →
        n = h ∨ DigestsMeet (presignInput n 5 fee nonce) (presignInput h 5 fee nonce) ∨
        ∃ k', RecoversKey (presignDigest n 5 fee nonce) q'.signature k' ∧ KeysCollide mode mode k' (Secp.pub k)) := by
  obtain ⟨hm, hfee, hnon, hsig, hns⟩ := (single_new_iff _ fee nonce mode q).1 hq
  have hmode : q.mode = .p2pkh ∨ q.mode = .p2wpkh := by
    rw [hm]; cases mode <;> first | exact .inl rfl | exact .inr rfl | cases hsig
  obtain ⟨hb, hvo⟩ := (verifyOrigin_iff t n).1 hv
  have h3 := (signSponsor_iff ⟨t, Hashes.sha512_256 (signingPreimage t), false, true, true⟩ _ k).2
    ⟨o, .single q, ha, fun _ => by
      show (if q.signature = noSignature then 0 else 1) < 1
      rw [if_pos hns]; omega, hmode, rfl⟩
  have hsb : SameBody (Signer.withSponsor ⟨t, Hashes.sha512_256 (signingPreimage t), false, true, true⟩ o
      (.single q) k).tx t := ⟨by rw [ha]; rfl, rfl, rfl, rfl, rfl, rfl, rfl⟩
  rw [ha] at hvo
  have hrec : RecoversKey (presignDigest (Hashes.sha512_256 (signingPreimage t)) 5 fee nonce)
      (Signer.sponsorSig ⟨t, Hashes.sha512_256 (signingPreimage t), false, true, true⟩ (.single q) k) (Secp.pub k) := by
    rw [← hfee, ← hnon]; exact recovers_signature _ _
  refine ⟨Signer.withSponsor ⟨t, Hashes.sha512_256 (signingPreimage t), false, true, true⟩ o (.single q) k,
    { q with signature := Signer.sponsorSig ⟨t, Hashes.sha512_256 (signingPreimage t), false, true, true⟩ (.single q) k },
    Hashes.sha512_256 (signingPreimage t), ?_, rfl, ?_, fun hok => ?_⟩
  · rw [(signer_new_iff t _).2 ⟨hb, rfl⟩, Outcome.ok_bind]; exact h3
  · rw [initialHash_iff, hsb.preimage]; exact ⟨hsb.encodable.2 hb, rfl⟩
  · replace hok : (Auth.sponsored o (.single { q with signature := (Signer.sponsorSig
      ⟨t, Hashes.sha512_256 (signingPreimage t), false, true, true⟩ (.single q) k) })).verify _ = .ok () := hok
    rw [C54_sponsored_iff] at hok
    obtain ⟨n1, n2, hv1, hv2⟩ := hok
    have en : n1 = n := Outcome.ok.inj (hv1.symm.trans hvo)
    subst en
    replace hv2 : SingleSig.verify _ _ 5 = .ok n2 := hv2
    rw [single_verify_iff] at hv2
    obtain ⟨k', r, hk, _⟩ := hv2
    replace r : RecoversKey (presignDigest n1 5 fee nonce) (Signer.sponsorSig ⟨t, Hashes.sha512_256 (signingPreimage t), false, true, true⟩
      (.single q) k) k' := by rw [← hfee, ← hnon]; exact r
    replace hk : keySigner mode k' = some q.signer := by rw [← hm]; exact hk
    by_cases he : k' = Secp.pub k
    · subst he
      by_cases hi : presignInput n1 5 fee nonce = presignInput (Hashes.sha512_256 (signingPreimage t)) 5 fee nonce
      · exact .inl (presignInput_inj hi).1
      · exact .inr (.inl ⟨hi, C99_one_digest _ _ _ _ r hrec⟩)
    · exact .inr (.inr ⟨k', r, keys_collide hk hsig he⟩)

/-- **C132** The same for the members of a sponsor of several: `new_sponser` with the sponsor as the first group
left it begins again at the origin's hash. All calls succeed, and the transaction verifies only if the first group's
hash is the origin's (as when none of them signed), or two explicit strings have SHA-512/256 that meet, or the
recovered keys are others with the same address. -/
theorem C132_start_anew_sponsor (t : Transaction) (o p : Spending) (n : Arr 32) (ks ks' : List Secp.SK)
    (fee nonce : UInt64) (m : UInt8) (mode : C32.Mode) (q : MultiSig) (ha : t.auth = .sponsored o p)
    (hv : t.verifyOrigin = .ok n)
    (hnew : (MultiSig.new ((ks ++ ks').map Secp.pub) fee nonce m mode : Outcome TxError MultiSig) = .ok q)
    (hm : (ks ++ ks').length = m.toNat) (hone : ks' ≠ []) :
    ∃ s s' q' h, (Signer.newSponsor t (.multi q) >>= fun s => signSponsors s ks) = .ok s ∧
      startAnewSponsor s ks' = .ok s' ∧ s'.tx.auth = .sponsored o (.multi q') ∧ s'.tx.initialHash = .ok h ∧
      (s'.tx.auth.verify h = .ok () →
        s.hash = n ∨ DigestsMeet (presignInput s.hash 5 fee nonce) (presignInput n 5 fee nonce) ∨
        ∃ rs n', Recovers 5 fee nonce n q'.fields rs n' ∧
          AccountsCollide mode mode (multisigScriptSpec m.toNat rs)
            (multisigScriptSpec m.toNat ((ks ++ ks').map Secp.pub))) := by
  obtain ⟨⟨h175, hlen⟩, hsig, hce⟩ := (multi_new_iff _ fee nonce m mode q).1 hnew
  have hfields : q.fields = [] := by rw [hce]
  have hreq : q.required = m := by rw [hce]
  have hmo : q.mode = mode := by rw [hce]
  have hfee : q.fee = fee := by rw [hce]
  have hnon : q.nonce = nonce := by rw [hce]
  have hmode : q.mode = .p2sh ∨ q.mode = .p2wsh := by
    rw [hmo]; cases mode <;> first | exact .inl rfl | exact .inr rfl | cases hsig
  rw [List.length_append] at hm
  have hv2 : Transaction.verifyOrigin { t with auth := .sponsored o (.multi q) } = .ok n := by
    rw [C53_origin_independent_of_sponsor t o p _ ha, hv]
  have h1 := (newSponsor_iff t (.multi q) _).2 ⟨o, p, n, ha, hv2, rfl⟩
  obtain ⟨s, gs, h2, h3, h4, h5⟩ := signSponsors_ok ks
    ⟨{ t with auth := .sponsored o (.multi q) }, n, true, true, true⟩ o q rfl hmode
    (fun _ => by rw [hfields, hreq, List.countP_nil]; omega)
  rw [hfields, List.nil_append] at h3
  have ha3 : s.tx.auth = .sponsored o (.multi { q with fields := gs }) := by rw [h3]
  have hv3 : s.tx.verifyOrigin = .ok n := by
    rw [h3]
    exact (C53_origin_independent_of_sponsor t o p _ ha).trans hv
  have hself : { s.tx with auth := .sponsored o (.multi { q with fields := gs }) } = s.tx := by rw [h3]
  have k1 := (newSponsor_iff s.tx (.multi { q with fields := gs }) _).2
    ⟨o, _, n, ha3, by rw [hself]; exact hv3, rfl⟩
  rw [hself] at k1
  obtain ⟨s', gs', k2, k3, k4, k5⟩ := signSponsors_ok ks' ⟨s.tx, n, true, true, true⟩ o { q with fields := gs } ha3 hmode
    (fun _ => by
      show gs.countP isSignature + _ ≤ q.required.toNat
      rw [hreq]; omega)
  have ha4 : s'.tx.auth = .sponsored o (.multi { q with fields := gs ++ gs' }) := by rw [k3]
  obtain ⟨hb, hvo⟩ := (verifyOrigin_iff t n).1 hv
  rw [ha] at hvo
  have hsb : SameBody s'.tx t := by
    rw [k3, h3]; exact ⟨by rw [ha]; rfl, rfl, rfl, rfl, rfl, rfl, rfl⟩
  have hone' : 0 < gs'.countP isSignature := by
    rw [k5]; exact List.length_pos_of_ne_nil hone
  refine ⟨s, s', { q with fields := gs ++ gs' }, Hashes.sha512_256 (signingPreimage t), ?_, ?_, ha4, ?_, fun hok => ?_⟩
  · rw [h1]; exact h2
  · rw [startAnewSponsor, ha3]
    show (Signer.newSponsor s.tx (.multi { q with fields := gs }) >>= _) = _
    rw [k1]; exact k2
  · rw [initialHash_iff, hsb.preimage]; exact ⟨hsb.encodable.2 hb, rfl⟩
  · rw [ha4, C54_sponsored_iff] at hok
    obtain ⟨n1, n2, hv1, hv4⟩ := hok
    have en : n1 = n := Outcome.ok.inj (hv1.symm.trans hvo)
    subst en
    replace hv4 : MultiSig.verify { q with fields := gs ++ gs' } n1 5 = .ok n2 := hv4
    rw [multi_verify_iff] at hv4
    obtain ⟨rs, r, _, _, _, hk⟩ := hv4
    replace r : Recovers 5 fee nonce n1 (gs ++ gs') rs n2 := by rw [← hfee, ← hnon]; exact r
    replace hk : scriptSigner mode m.toNat rs = some q.signer := by rw [← hmo, ← hreq]; exact hk
    by_cases he : rs = (ks ++ ks').map Secp.pub
    · subst he
      obtain ⟨ks1, ks2, x, e, r1, r2⟩ := recovers_split gs gs' r
      replace h4 : Recovers 5 fee nonce n1 gs (ks.map Secp.pub) s.hash := by rw [← hfee, ← hnon]; exact h4
      obtain ⟨e1, rfl⟩ := recovers_det r1 h4
      subst e1
      rw [List.map_append] at e
      have e2 := List.append_cancel_left e
      subst e2
      replace k4 : Recovers 5 fee nonce n1 gs' (ks'.map Secp.pub) s'.hash := by rw [← hfee, ← hnon]; exact k4
      rcases two_hashes r2 k4 hone' with h | h
      · exact .inl h
      · exact .inr (.inl h)
    · exact .inr (.inr ⟨rs, n2, r, accounts_collide h175 h175 hk hsig he⟩)

end

/-! ## Cases -/

section
attribute [local instance] Concrete.realHashes Concrete.toySecp
local instance relayToy : Secp.Lawful := Concrete.toyLawful

/-- Two of three, with three signers: the first signs, the second only puts the key of the absent member in its
place, the third signs. -/
example : ∃ s, (Signer.new exTx3 >>= fun s => relay s
      [[.signs (exKey 1)], [.absent (exKey 2)], [.signs (exKey 3)]]) = .ok s ∧ s.tx.verifyOrigin = .ok s.hash :=
  C132_relay_verifies exTx3 [[.signs (exKey 1)], [.absent (exKey 2)], [.signs (exKey 3)]] 180 5 2 .p2sh exTwoOfThree
    exTwoOfThree_new rfl (wf_encodable_tx _ exTx_wf).2 (by decide)

/-- One signer for the origin and the sponsor. -/
example : ∃ s h, (Signer.new { exTx with auth := .sponsored (.single exSingle) (.single exSponsor) } >>= fun s =>
      s.signOrigin (exKey 1) >>= fun s => s.signSponsor (exKey 4)) = .ok s ∧
    s.tx.initialHash = .ok h ∧ s.tx.auth.verify h = .ok () :=
  C132_both_parts { exTx with auth := .sponsored (.single exSingle) (.single exSponsor) } (exKey 1) (exKey 4) 180 5 7 9
    .p2pkh .p2wpkh exSingle exSponsor rfl (wf_encodable_tx _ exTx_wf).2 exSingle_new exSponsor_new

end

section
open Stacks.Concrete.Ecdsa
attribute [local instance] Concrete.realHashes realSecp
local instance relayReal : Secp.Lawful := realLawful

def exSeven : Secp.SK := (⟨7, by decide⟩ : SK)
def exNine : Secp.SK := (⟨9, by decide⟩ : SK)
def exEleven : Secp.SK := (⟨11, by decide⟩ : SK)

/-- Two of two on the curve, with the keys 7 and 9. -/
def exRealTwo : MultiSig :=
  ⟨.p2sh, 3, 1, hash160Of (multisigScriptSpec 2 ([Participant.signs exSeven, .signs exNine].map Participant.key)), [], 2⟩
def exRealTx : Transaction :=
  ⟨.mainnet, .mainnet, .standard (.multi exRealTwo), .any, .deny, exConditions, .tokenTransfer exTransfer⟩
theorem exRealTx_body : EncodableBody exRealTx :=
  (wf_encodable_tx exRealSponsored ⟨⟨.inl rfl, .inl rfl⟩, by decide, exConditions_wf, exTransfer_wf⟩).2
theorem exRealTwo_new :
    (MultiSig.new ([Participant.signs exSeven, .signs exNine].map Participant.key) 3 1 2 .p2sh : Outcome TxError MultiSig) =
      .ok exRealTwo := (multi_new_iff _ _ _ _ _ _).2 ⟨⟨by decide, by decide⟩, rfl, rfl⟩

/-- The second with a signer as `new` makes it: every call succeeds. -/
example : ∃ s s', (Signer.new exRealTx >>= fun s => walk s [.signs exSeven]) = .ok s ∧
    startAnew s [.signs exNine] = .ok s' := by
  obtain ⟨s, s', _, h1, h2, _⟩ := C132_start_anew exRealTx [.signs exSeven] [.signs exNine] 3 1 2 .p2sh
    exRealTwo exRealTwo_new rfl exRealTx_body rfl (Nat.zero_lt_one)
  exact ⟨s, s', h1, h2⟩

/-- And the transaction does not verify; with the hash carried over it does. -/
example :
    (match (Signer.new exRealTx >>= fun s => walk s [.signs exSeven] >>= fun s => startAnew s [.signs exNine]) with
      | .ok s => (match s.tx.verifyOrigin with | .ok _ => false | _ => true)
      | _ => false) = true := by decide +kernel
example : ∃ s, (Signer.new exRealTx >>= fun s => relay s [[.signs exSeven], [.signs exNine]]) = .ok s ∧
    s.tx.verifyOrigin = .ok s.hash :=
  C132_relay_verifies exRealTx [[.signs exSeven], [.signs exNine]] 3 1 2 .p2sh exRealTwo exRealTwo_new rfl
    exRealTx_body rfl

/-- Signed by both, the transaction meets the hypotheses of `C83_multisig`. -/
example : ∃ (t : Transaction) (c : MultiSig) (n : Arr 32) (pre post : List AuthField) (s : Arr 65),
    t.auth = .standard (.multi c) ∧ c.fields = pre ++ .msg s :: post ∧ post.countP isSignature = 0 ∧
    t.verifyOrigin = .ok n := by
  obtain ⟨s, h1, h2, h3, _⟩ := C50_multisig_flow exRealTx [.signs exSeven, .signs exNine] 3 1 2 .p2sh exRealTwo true
    exRealTwo_new rfl exRealTx_body (Nat.le_refl 2) (by decide) (fun _ => rfl)
  obtain ⟨s', gs, k1, k2, k3, k4, _⟩ := walk_ok [.signs exSeven, .signs exNine]
    ⟨exRealTx, Hashes.sha512_256 (signingPreimage exRealTx), false, true, true⟩ exRealTwo rfl (.inl rfl) (by simp)
    (fun _ => Nat.le_refl 2)
  rw [(signer_new_iff exRealTx _).2 ⟨exRealTx_body, rfl⟩, Outcome.ok_bind] at h1
  have e : s = s' := Outcome.ok.inj (h1.symm.trans k1)
  subst e
  replace k4 : gs.map isSignature = [true, true] := k4
  clear h1 k1 k3
  match gs, k4 with
  | [x, .msg sg], _ =>
    exact ⟨s.tx, { exRealTwo with fields := [x, .msg sg] }, s.hash, [x], [], sg, by rw [k2]; rfl, rfl, rfl, h2⟩
  | [x, .pk k], k4 => simp [isSignature] at k4
  | [], k4 => simp at k4
  | [x], k4 => simp at k4
  | _ :: _ :: _ :: _, k4 => simp at k4

/-- A transaction signed by its origin, for which the sponsor of one key or of two signs with the wrong signer. -/
example (q : SingleSig) (q2 : MultiSig)
    (hq : (SingleSig.new (Secp.pub exNine) 11 2 .p2wpkh : Outcome TxError SingleSig) = .ok q)
    (hq2 : (MultiSig.new (([exNine] ++ [exEleven]).map Secp.pub) 11 2 2 .p2wsh : Outcome TxError MultiSig) = .ok q2) :
    ∃ (t : Transaction) (o : Spending) (n : Arr 32), t.auth = .sponsored o (.single q) ∧ t.verifyOrigin = .ok n ∧
      (∃ s, (Signer.new t >>= fun s => s.signSponsor exNine) = .ok s) ∧
      ∃ s s', (Signer.newSponsor t (.multi q2) >>= fun s => signSponsors s [exNine]) = .ok s ∧
        startAnewSponsor s [exEleven] = .ok s' := by
  obtain ⟨t1, s, s', h, h1, h2, _⟩ := C76_sponsored exRealSponsored noSponsor exSeven exNine 3 1 11 2 .p2pkh .p2wpkh _ q
    rfl exRealTx_body ((single_new_iff _ _ _ _ _).2 ⟨rfl, rfl, rfl, rfl, rfl⟩) hq
  obtain ⟨o, c, n, ha, hv, _⟩ := (newSponsor_iff _ _ _).1 h2
  have hv1 : ({ t1 with auth := .sponsored o (.single q) } : Transaction).verifyOrigin = .ok n := hv
  obtain ⟨s1, _, _, a1, _⟩ := C132_new_for_sponsor { t1 with auth := .sponsored o (.single q) } o n exNine 11 2 .p2wpkh q
    rfl hv1 hq
  obtain ⟨s2, s3, _, _, b1, b2, _⟩ := C132_start_anew_sponsor { t1 with auth := .sponsored o (.single q) } o (.single q) n
    [exNine] [exEleven] 11 2 2 .p2wsh q2 rfl hv1 hq2 rfl (by simp)
  exact ⟨_, o, n, rfl, hv1, ⟨s1, a1⟩, s2, s3, b1, b2⟩

/-- Such conditions exist. -/
example : ∃ q q2, (SingleSig.new (Secp.pub exNine) 11 2 .p2wpkh : Outcome TxError SingleSig) = .ok q ∧
    (MultiSig.new (([exNine] ++ [exEleven]).map Secp.pub) 11 2 2 .p2wsh : Outcome TxError MultiSig) = .ok q2 := by
  obtain ⟨q2, hq2⟩ := (C55_new_panics_iff (([exNine] ++ [exEleven]).map Secp.pub) 11 2 2 .p2wsh
    (.inr rfl)).2.2 ⟨by decide, by rw [List.length_map]; decide⟩
  exact ⟨_, q2, (single_new_iff _ _ _ _ ⟨.p2wpkh, 11, 2, _, noSignature⟩).2 ⟨rfl, rfl, rfl, rfl, rfl⟩, hq2⟩

end

end Stacks.Tx
