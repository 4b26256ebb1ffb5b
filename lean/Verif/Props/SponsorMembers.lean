import Verif.Spec.SponsorMembers
import Verif.Props.Signing
import Verif.Props.Binding
import Verif.Model.InPlace

/-! # Property C131: a sponsor of several members -/

namespace Stacks.Tx
open Stacks.Spec Stacks.Clarity

section
variable [Secp] [Hashes]

/-- What every call keeps: the sponsor is the one that was set, with signatures added. -/
def OnlySigned (q : MultiSig) (s : Signer) : Prop :=
  ∃ o gs, s.tx.auth = .sponsored o (.multi { q with fields := gs }) ∧ ∀ f ∈ gs, isSignature f = true

theorem onlySigned_call (q : MultiSig) (op : SignerOp) (s s' : Signer) (h : OnlySigned q s) (hc : op.call s = .ok s') :
    OnlySigned q s' := by
  obtain ⟨o, gs, ha, hg⟩ := h
  cases op with
  | signOrigin k =>
    obtain ⟨_, _, _, rfl⟩ := (signOrigin_iff _ _ _).1 hc
    refine ⟨withSignature s.tx.auth.origin (s.originSig k), gs, ?_, hg⟩
    show s.tx.auth.setOrigin _ = _
    rw [ha]; rfl
  | appendOrigin k =>
    obtain ⟨_, _, _, rfl⟩ := (appendOrigin_iff _ _ _).1 hc
    refine ⟨withKey s.tx.auth.origin k, gs, ?_, hg⟩
    show s.tx.auth.setOrigin _ = _
    rw [ha]; rfl
  | signSponsor k =>
    obtain ⟨o', c, ha', _, _, rfl⟩ := (signSponsor_iff _ _ _).1 hc
    rw [ha] at ha'
    cases ha'
    refine ⟨o, gs ++ [.msg (s.sponsorSig (.multi { q with fields := gs }) k)], rfl, fun f hf => ?_⟩
    rcases List.mem_append.1 hf with hf | hf
    · exact hg f hf
    · rw [List.mem_singleton.1 hf]; rfl

theorem onlySigned_after (q : MultiSig) (ops : List (Bool × Bool × SignerOp)) : ∀ s, OnlySigned q s →
    OnlySigned q (afterWith s ops) := by
  induction ops with
  | nil => intro s h; exact h
  | cons x ops ih =>
    obtain ⟨a, b, op⟩ := x
    intro s h
    rw [afterWith]
    have h' : OnlySigned q { s with verifyOversign := a, verifyOverlap := b } := h
    split
    · rename_i s' hs; exact ih s' (onlySigned_call q op _ s' h' hs)
    · exact ih _ h'

theorem onlySigned_new {t : Transaction} {q : MultiSig} {s : Signer} (hq : q.fields = [])
    (h : Signer.newSponsor t (.multi q) = .ok s) : OnlySigned q s := by
  obtain ⟨o, c', n, _, _, rfl⟩ := (newSponsor_iff _ _ _).1 h
  exact ⟨o, [], by rw [← hq], by simp⟩

theorem onlySigned_verified [Secp.Lawful] {pks : List Secp.PK} {fee nonce : UInt64} {m : UInt8} {mode : C32.Mode}
    {q : MultiSig} {s : Signer} {h : Arr 32}
    (hnew : (MultiSig.new pks fee nonce m mode : Outcome TxError MultiSig) = .ok q) (hs : OnlySigned q s)
    (hv : s.tx.auth.verify h = .ok ()) :
    ∃ o gs n n' ks, s.tx.auth = .sponsored o (.multi { q with fields := gs }) ∧ (∀ f ∈ gs, isSignature f = true) ∧
      o.verify h 4 = .ok n ∧ Recovers 5 fee nonce n gs ks n' ∧ gs.countP isSignature = gs.length ∧
      gs.length = ks.length ∧ m.toNat ≤ ks.length ∧
      (ks = pks ∨ AccountsCollide mode mode (multisigScriptSpec m.toNat ks) (multisigScriptSpec m.toNat pks)) := by
  obtain ⟨⟨h175, _⟩, hsig, hce⟩ := (multi_new_iff _ fee nonce m mode q).1 hnew
  have hreq : q.required = m := by rw [hce]
  obtain ⟨o, gs, ha, hg⟩ := hs
  rw [ha, C54_sponsored_iff] at hv
  obtain ⟨n, n', ho, hv⟩ := hv
  replace hv : MultiSig.verify { q with fields := gs } n 5 = .ok n' := hv
  rw [multi_verify_iff] at hv
  obtain ⟨ks, hr, hge, _, _, hk⟩ := hv
  replace hr : Recovers 5 fee nonce n gs ks n' := by rw [hce] at hr; exact hr
  replace hk : scriptSigner mode m.toNat ks = some q.signer := by rw [hce] at hk; exact hk
  have hl := recovers_length hr
  have hcount := List.countP_eq_length.2 hg
  replace hge : q.required.toNat ≤ gs.countP isSignature := hge
  refine ⟨o, gs, n, n', ks, ha, hg, ho, hr, hcount, hl.symm, by rw [hreq] at hge; omega, ?_⟩
  by_cases he : ks = pks
  · exact .inl he
  · exact .inr (accounts_collide h175 h175 hk hsig he)

/-- **C131** A transaction whose sponsor was set with `new_sponser` to a fresh m-of-n condition, and on whose
signer any calls were made with the flags set in any way before each: if it verifies, then the sponsor holds one
signature for each of its n members, in order; or the keys recovered from its signatures are another list of keys
whose script has the same address. -/
theorem C131_sponsor_needs_all [Secp.Lawful] (t : Transaction) (pks : List Secp.PK) (fee nonce : UInt64) (m : UInt8)
    (mode : C32.Mode) (q : MultiSig) (s : Signer) (ops : List (Bool × Bool × SignerOp)) (h : Arr 32)
    (hnew : (MultiSig.new pks fee nonce m mode : Outcome TxError MultiSig) = .ok q)
    (hs : Signer.newSponsor t (.multi q) = .ok s) (hv : (afterWith s ops).tx.auth.verify h = .ok ()) :
    ∃ o c n n' ks, (afterWith s ops).tx.auth = .sponsored o (.multi c) ∧ o.verify h 4 = .ok n ∧
      Recovers 5 fee nonce n c.fields ks n' ∧ c.fields.countP isSignature = c.fields.length ∧
      c.fields.length = ks.length ∧
      (ks = pks ∨ AccountsCollide mode mode (multisigScriptSpec m.toNat ks) (multisigScriptSpec m.toNat pks)) := by
  have hf : q.fields = [] := by
    obtain ⟨_, _, hce⟩ := (multi_new_iff _ fee nonce m mode q).1 hnew; rw [hce]
  obtain ⟨o, gs, n, n', ks, ha, hg, ho, hr, hc, hl, _, hk⟩ :=
    onlySigned_verified hnew (onlySigned_after q ops s (onlySigned_new hf hs)) hv
  exact ⟨o, _, n, n', ks, ha, ho, hr, hc, hl, hk⟩

/-- **C131** With the default checks and fewer required signatures than members, no sequence of calls on the
signer makes the transaction verify, unless the m keys recovered from the signatures have a script with the same
address as the n. -/
theorem C131_never_completed [Secp.Lawful] (t : Transaction) (pks : List Secp.PK) (fee nonce : UInt64) (m : UInt8)
    (mode : C32.Mode) (q : MultiSig) (s : Signer) (ops : List SignerOp) (h : Arr 32)
    (hnew : (MultiSig.new pks fee nonce m mode : Outcome TxError MultiSig) = .ok q)
    (hs : Signer.newSponsor t (.multi q) = .ok s) (hm : m.toNat < pks.length)
    (hv : (after s ops).tx.auth.verify h = .ok ()) :
    ∃ o c n n' ks, (after s ops).tx.auth = .sponsored o (.multi c) ∧ o.verify h 4 = .ok n ∧
      Recovers 5 fee nonce n c.fields ks n' ∧ ks.length = m.toNat ∧
      AccountsCollide mode mode (multisigScriptSpec m.toNat ks) (multisigScriptSpec m.toNat pks) := by
  obtain ⟨_, _, hce⟩ := (multi_new_iff _ fee nonce m mode q).1 hnew
  have hf : q.fields = [] := by rw [hce]
  have hreq : q.required = m := by rw [hce]
  let P : Signer → Prop := fun s => s.verifyOversign = true ∧ OnlySigned q s ∧
    ∀ o c, s.tx.auth = .sponsored o (.multi c) → c.fields.countP isSignature ≤ m.toNat
  have hP : P (after s ops) := by
    refine after_induction P ?_ ops s ?_
    · rintro op s s' ⟨h1, h2, h3⟩ hc
      refine ⟨(call_flags op s s' hc).1.trans h1, onlySigned_call q op s s' h2 hc, ?_⟩
      obtain ⟨o, gs, ha, hg⟩ := h2
      cases op with
      | signOrigin k =>
        obtain ⟨_, _, _, rfl⟩ := (signOrigin_iff _ _ _).1 hc
        intro o' c' he
        have he' : s.tx.auth.setOrigin (withSignature s.tx.auth.origin (s.originSig k)) = _ := he
        rw [ha] at he'
        cases he'
        exact h3 o _ ha
      | appendOrigin k =>
        obtain ⟨_, _, _, rfl⟩ := (appendOrigin_iff _ _ _).1 hc
        intro o' c' he
        have he' : s.tx.auth.setOrigin (withKey s.tx.auth.origin k) = _ := he
        rw [ha] at he'
        cases he'
        exact h3 o _ ha
      | signSponsor k =>
        obtain ⟨o', c, ha', hlt, _, rfl⟩ := (signSponsor_iff _ _ _).1 hc
        rw [ha] at ha'
        cases ha'
        intro o' c' he
        cases he
        have := hlt h1
        replace this : gs.countP isSignature < q.required.toNat := this
        rw [hreq] at this
        show (gs ++ [_]).countP isSignature ≤ _
        rw [List.countP_append, List.countP_cons_of_pos (by rfl), List.countP_nil]
        omega
    · refine ⟨?_, onlySigned_new hf hs, ?_⟩
      · obtain ⟨o, c', n, _, _, rfl⟩ := (newSponsor_iff _ _ _).1 hs; rfl
      · obtain ⟨o, c', n, _, _, rfl⟩ := (newSponsor_iff _ _ _).1 hs
        intro o' c' he
        cases he
        rw [hf]; exact Nat.zero_le _
  obtain ⟨_, h2, h3⟩ := hP
  obtain ⟨o, gs, n, n', ks, ha, hg, ho, hr, hc, hl, hge, hk⟩ := onlySigned_verified hnew h2 hv
  have hle := h3 o _ ha
  replace hle : gs.countP isSignature ≤ m.toNat := hle
  refine ⟨o, _, n, n', ks, ha, ho, hr, by omega, hk.resolve_left ?_⟩
  rintro rfl
  omega

/-- **C131** What works with the signer alone: the check of the number of signatures switched off, and all
members signing in order. -/
theorem C131_all_members_sign [Secp.Lawful] (t : Transaction) (o p : Spending) (n : Arr 32) (ks : List Secp.SK)
    (fee nonce : UInt64) (m : UInt8) (mode : C32.Mode) (q : MultiSig) (ha : t.auth = .sponsored o p)
    (hv : t.verifyOrigin = .ok n)
    (hnew : (MultiSig.new (ks.map Secp.pub) fee nonce m mode : Outcome TxError MultiSig) = .ok q)
    (hm : m.toNat ≤ ks.length) (hl : ks.length < 256) :
    ∃ s s' h, Signer.newSponsor t (.multi q) = .ok s ∧ signSponsors { s with verifyOversign := false } ks = .ok s' ∧
      s'.tx.initialHash = .ok h ∧ s'.tx.auth.verify h = .ok () ∧ s'.tx.verifyOrigin = .ok n := by
  obtain ⟨⟨h175, hlen⟩, hsig, hce⟩ := (multi_new_iff _ fee nonce m mode q).1 hnew
  have hfields : q.fields = [] := by rw [hce]
  have hreq : q.required = m := by rw [hce]
  have hmo : q.mode = mode := by rw [hce]
  have hmode : q.mode = .p2sh ∨ q.mode = .p2wsh := by
    rw [hmo]; cases mode <;> first | exact .inl rfl | exact .inr rfl | cases hsig
  have hv2 : Transaction.verifyOrigin { t with auth := .sponsored o (.multi q) } = .ok n := by
    rw [C53_origin_independent_of_sponsor t o p _ ha, hv]
  have h1 := (newSponsor_iff t (.multi q) _).2 ⟨o, p, n, ha, hv2, rfl⟩
  obtain ⟨s', gs, h2, h3, h4, h5⟩ := signSponsors_ok ks
    ⟨{ t with auth := .sponsored o (.multi q) }, n, true, false, true⟩ o q rfl hmode
    (fun h => by cases h)
  obtain ⟨hb, hvo⟩ := (verifyOrigin_iff t n).1 hv
  have hsb : SameBody s'.tx t := by
    rw [h3]; exact ⟨by rw [ha]; rfl, rfl, rfl, rfl, rfl, rfl, rfl⟩
  rw [ha] at hvo
  refine ⟨_, s', Hashes.sha512_256 (signingPreimage t), h1, h2, ?_, ?_, ?_⟩
  · rw [initialHash_iff, hsb.preimage]; exact ⟨hsb.encodable.2 hb, rfl⟩
  · rw [h3, C54_sponsored_iff]
    refine ⟨n, s'.hash, hvo, ?_⟩
    show MultiSig.verify _ _ 5 = _
    rw [multi_verify_iff]
    simp only [hfields, List.nil_append]
    exact ⟨_, h4, by rw [h5, hreq]; omega, by rw [h5]; omega, ⟨by rw [hreq]; exact h175, hlen⟩,
      by rw [hreq, hmo]; exact hsig⟩
  · rw [verifyOrigin_iff]
    refine ⟨hsb.encodable.2 hb, ?_⟩
    rw [hsb.preimage, h3]
    exact hvo

omit [Hashes] in
theorem appendByHand_ok (s : Signer) (o : Spending) (c : MultiSig) (k : Secp.PK)
    (ha : s.tx.auth = .sponsored o (.multi c)) :
    appendSponsorByHand s k =
      .ok { s with tx := { s.tx with auth := .sponsored o (.multi { c with fields := c.fields ++ [.pk k] }) } } := by
  unfold appendSponsorByHand
  rw [ha]; rfl

theorem walkSponsor_ok [Secp.Lawful] (ps : List Participant) : ∀ (s : Signer) (o : Spending) (c : MultiSig),
    s.tx.auth = .sponsored o (.multi c) → (c.mode = .p2sh ∨ c.mode = .p2wsh) →
    (s.verifyOversign = true → c.fields.countP isSignature + ps.countP Participant.isSigner ≤ c.required.toNat) →
    ∃ s' gs, walkSponsor s ps = .ok s' ∧
      s'.tx = { s.tx with auth := .sponsored o (.multi { c with fields := c.fields ++ gs }) } ∧
      Recovers 5 c.fee c.nonce s.hash gs (ps.map Participant.key) s'.hash ∧
      gs.map isSignature = ps.map Participant.isSigner := by
  induction ps with
  | nil =>
    intro s o c ho hf hc
    refine ⟨s, [], rfl, ?_, .nil _, rfl⟩
    obtain ⟨⟨v, ci, a, am, pm, pcs, pl⟩, h, os, vs, vl⟩ := s
    simp only [] at ho
    subst ho
    simp
  | cons p ps ih =>
    intro s o c ho hf hc
    cases p with
    | absent k =>
      have h1 := appendByHand_ok s o c k ho
      obtain ⟨s', gs, h2, h3, h4, h5⟩ := ih
        { s with tx := { s.tx with auth := .sponsored o (.multi { c with fields := c.fields ++ [.pk k] }) } } o
        { c with fields := c.fields ++ [.pk k] } rfl hf (fun he => by
          have := hc he
          rw [List.countP_cons_of_neg (fun h => Bool.noConfusion h)] at this
          simp only []
          rw [List.countP_append, List.countP_cons_of_neg (fun h => Bool.noConfusion h)]
          simpa using this)
      refine ⟨s', .pk k :: gs, ?_, ?_, .pk _ _ _ _ _ h4, ?_⟩
      · rw [walkSponsor, h1]; exact h2
      · rw [h3]; simp
      · simp only [List.map_cons, h5]; rfl
    | signs k =>
      have h1 := (signSponsor_iff s _ k).2 ⟨o, .multi c, ho, fun he => by
        have := hc he
        rw [List.countP_cons_of_pos (by rfl)] at this
        show c.fields.countP isSignature < c.required.toNat
        omega, hf, rfl⟩
      obtain ⟨s', gs, h2, h3, h4, h5⟩ := ih (s.withSponsor o (.multi c) k) o
        { c with fields := c.fields ++ [.msg (s.sponsorSig (.multi c) k)] } rfl hf (fun he => by
          have := hc he
          rw [List.countP_cons_of_pos (by rfl)] at this
          simp only []
          rw [List.countP_append, List.countP_cons_of_pos (by rfl), List.countP_nil]
          omega)
      refine ⟨s', .msg (s.sponsorSig (.multi c) k) :: gs, ?_, ?_, .msg _ _ _ _ _ _ ?_ h4, ?_⟩
      · rw [walkSponsor, h1]; exact h2
      · rw [h3]
        simp [Signer.withSponsor]
      · exact recovers_signature _ _
      · simp only [List.map_cons, h5]; rfl

/-- **C131** What a caller can do about it: put the keys of the members who do not sign in their places with
`sponsor_mut` and `modify`. Walking all members in order, m of them signing, then gives a transaction that verifies. -/
theorem C131_by_hand [Secp.Lawful] (t : Transaction) (o p : Spending) (n : Arr 32) (ps : List Participant)
    (fee nonce : UInt64) (m : UInt8) (mode : C32.Mode) (q : MultiSig) (ha : t.auth = .sponsored o p)
    (hv : t.verifyOrigin = .ok n)
    (hnew : (MultiSig.new (ps.map Participant.key) fee nonce m mode : Outcome TxError MultiSig) = .ok q)
    (hm : ps.countP Participant.isSigner = m.toNat) :
    ∃ s s' h, Signer.newSponsor t (.multi q) = .ok s ∧ walkSponsor s ps = .ok s' ∧
      s'.tx.initialHash = .ok h ∧ s'.tx.auth.verify h = .ok () ∧ s'.tx.verifyOrigin = .ok n := by
  obtain ⟨⟨h175, hlen⟩, hsig, hce⟩ := (multi_new_iff _ fee nonce m mode q).1 hnew
  have hfields : q.fields = [] := by rw [hce]
  have hreq : q.required = m := by rw [hce]
  have hmo : q.mode = mode := by rw [hce]
  have hmode : q.mode = .p2sh ∨ q.mode = .p2wsh := by
    rw [hmo]; cases mode <;> first | exact .inl rfl | exact .inr rfl | cases hsig
  have hv2 : Transaction.verifyOrigin { t with auth := .sponsored o (.multi q) } = .ok n := by
    rw [C53_origin_independent_of_sponsor t o p _ ha, hv]
  have h1 := (newSponsor_iff t (.multi q) _).2 ⟨o, p, n, ha, hv2, rfl⟩
  obtain ⟨s', gs, h2, h3, h4, h5⟩ := walkSponsor_ok ps
    ⟨{ t with auth := .sponsored o (.multi q) }, n, true, true, true⟩ o q rfl hmode
    (fun _ => by rw [hfields, hreq, List.countP_nil]; omega)
  have h6 : gs.countP isSignature = m.toNat := by
    have e : (gs.map isSignature).countP id = (ps.map Participant.isSigner).countP id := by rw [h5]
    rw [List.countP_map, List.countP_map] at e
    exact e.trans hm
  obtain ⟨hb, hvo⟩ := (verifyOrigin_iff t n).1 hv
  have hsb : SameBody s'.tx t := by
    rw [h3]; exact ⟨by rw [ha]; rfl, rfl, rfl, rfl, rfl, rfl, rfl⟩
  rw [ha] at hvo
  refine ⟨_, s', Hashes.sha512_256 (signingPreimage t), h1, h2, ?_, ?_, ?_⟩
  · rw [initialHash_iff, hsb.preimage]; exact ⟨hsb.encodable.2 hb, rfl⟩
  · rw [h3, C54_sponsored_iff]
    refine ⟨n, s'.hash, hvo, ?_⟩
    show MultiSig.verify _ _ 5 = _
    rw [multi_verify_iff]
    simp only [hfields, List.nil_append]
    exact ⟨_, h4, by rw [h6, hreq], by rw [h6]; exact m.toNat_lt, ⟨by rw [hreq]; exact h175, hlen⟩,
      by rw [hreq, hmo]; exact hsig⟩
  · rw [verifyOrigin_iff]
    refine ⟨hsb.encodable.2 hb, ?_⟩
    rw [hsb.preimage, h3]
    exact hvo

omit [Hashes] in
/-- **C131** What the caller writes for the missing method is that change in place. -/
theorem C131_by_hand_in_place (s : Signer) (k : Secp.PK) :
    Transaction.authMut (Auth.sponsorMut (Spending.modifyMut (.addPublicKey k))) s.tx =
      (match appendSponsorByHand s k with
        | .ok s' => (.ok (), s'.tx)
        | .err e => (.err e, s.tx)
        | .panic => (.panic, s.tx)) := by
  obtain ⟨⟨v, ci, a, am, pm, pcs, pl⟩, h, os, vs, vl⟩ := s
  cases a with
  | standard o => rfl
  | sponsored o p => cases p <;> rfl

end

/-! ## Cases -/

attribute [local instance] Concrete.realHashes Concrete.toySecp
local instance : Secp.Lawful := Concrete.toyLawful

/-- The signed origin of `exTwoSponsors`, sponsored by two of three: whatever is called on the
signer, the transaction does not verify, or the two keys recovered have the address of the three. -/
example : ∃ (t : Transaction) (q : MultiSig) (s : Signer), t.auth.isSponsored = true ∧
    (MultiSig.new [Secp.pub (exKey 4), Secp.pub (exKey 5), Secp.pub (exKey 6)] 7 9 2 .p2wsh : Outcome TxError MultiSig) =
      .ok q ∧
    Signer.newSponsor t (.multi q) = .ok s ∧
    ∀ (ops : List SignerOp) (h : Arr 32), (after s ops).tx.auth.verify h = .ok () →
      ∃ ks : List Secp.PK, ks.length = 2 ∧ AccountsCollide .p2wsh .p2wsh (multisigScriptSpec 2 ks)
        (multisigScriptSpec 2 [Secp.pub (exKey 4), Secp.pub (exKey 5), Secp.pub (exKey 6)]) := by
  obtain ⟨c, n, hw, hv⟩ := exTwoSponsors
  obtain ⟨q, hq⟩ := (C55_new_panics_iff [Secp.pub (exKey 4), Secp.pub (exKey 5), Secp.pub (exKey 6)] 7 9 2 .p2wsh
    (.inr rfl)).2.2 ⟨by decide, by decide⟩
  have hs := (newSponsor_iff { exTx with auth := .sponsored (.single c) (.single exSingle) } (.multi q) _).2
    ⟨_, _, n, rfl, hv _, rfl⟩
  refine ⟨_, q, _, rfl, hq, hs, fun ops h hok => ?_⟩
  obtain ⟨_, _, _, _, ks, _, _, _, h1, h2⟩ := C131_never_completed _ _ 7 9 2 .p2wsh q _ ops h hq hs (by decide) hok
  exact ⟨ks, h1, h2⟩

/-- All three sign, with the check switched off; or two sign and the key of the third is put in by hand. Both
verify, and the first shows that the conclusion of `C131_sponsor_needs_all` is reached. -/
example : ∃ (t : Transaction) (q : MultiSig) (s s1 s2 : Signer) (h1 h2 : Arr 32), Signer.newSponsor t (.multi q) = .ok s ∧
    signSponsors { s with verifyOversign := false } [exKey 4, exKey 5, exKey 6] = .ok s1 ∧
    s1.tx.initialHash = .ok h1 ∧ s1.tx.auth.verify h1 = .ok () ∧
    walkSponsor s [.signs (exKey 4), .absent (Secp.pub (exKey 5)), .signs (exKey 6)] = .ok s2 ∧
    s2.tx.initialHash = .ok h2 ∧ s2.tx.auth.verify h2 = .ok () := by
  obtain ⟨c, n, hw, hv⟩ := exTwoSponsors
  obtain ⟨q, hq⟩ := (C55_new_panics_iff [Secp.pub (exKey 4), Secp.pub (exKey 5), Secp.pub (exKey 6)] 7 9 2 .p2wsh
    (.inr rfl)).2.2 ⟨by decide, by decide⟩
  obtain ⟨s, s1, h1, a1, a2, a3, a4, _⟩ := C131_all_members_sign
    { exTx with auth := .sponsored (.single c) (.single exSingle) } (.single c) (.single exSingle) n
    [exKey 4, exKey 5, exKey 6] 7 9 2 .p2wsh q rfl (hv _) hq (by decide) (by decide)
  obtain ⟨s', s2, h2, b1, b2, b3, b4, _⟩ := C131_by_hand
    { exTx with auth := .sponsored (.single c) (.single exSingle) } (.single c) (.single exSingle) n
    [.signs (exKey 4), .absent (Secp.pub (exKey 5)), .signs (exKey 6)] 7 9 2 .p2wsh q rfl (hv _) hq (by decide)
  have e : s = s' := by rw [a1] at b1; exact Outcome.ok.inj b1
  exact ⟨_, q, s, s1, s2, h1, h2, a1, a2, a3, a4, e ▸ b2, b3, b4⟩

/-- The three calls as a history with flags. -/
example (s : Signer) (s1 : Signer)
    (h : signSponsors { s with verifyOversign := false } [exKey 4, exKey 5] = .ok s1) (hl : s.verifyOverlap = true) :
    afterWith s [(false, true, .signSponsor (exKey 4)), (false, true, .signSponsor (exKey 5))] = s1 := by
  obtain ⟨t, x, os, vs, vl⟩ := s
  simp only [] at hl
  subst hl
  rw [signSponsors, Outcome.bind_eq_ok] at h
  obtain ⟨a, h1, h⟩ := h
  rw [signSponsors, Outcome.bind_eq_ok] at h
  obtain ⟨b, h2, h⟩ := h
  cases h
  have f := call_flags (.signSponsor (exKey 4)) _ a h1
  have ea : ({ a with verifyOversign := false, verifyOverlap := true } : Signer) = a := by
    obtain ⟨t', x', os', vs', vl'⟩ := a
    obtain ⟨f1, f2, _⟩ := f
    simp only [] at f1 f2
    subst f1 f2; rfl
  simp only [afterWith, SignerOp.call, h1, ea, h2]

end Stacks.Tx
