import Verif.Props.Binding
import Verif.Props.Verify

/-! # C101: the keys of a multi-signature account have an order -/

namespace Stacks.Tx
open Stacks.Spec

section
variable [Secp] [Hashes]

/-- **C101** The fields of a verified multi-signature origin name, or recover to, exactly the keys of the
account, all of them and in the order in which the account was made, or two explicit scripts collide. -/
theorem C101_fields_in_order [Secp.Lawful] (t : Transaction) (c : MultiSig) (keys : List Secp.PK) (n : Arr 32)
    (hc : t.auth.origin = .multi c) (hk : scriptSigner c.mode c.required.toNat keys = some c.signer)
    (hv : t.verifyOrigin = .ok n) :
    Recovers 4 c.fee c.nonce (Hashes.sha512_256 (signingPreimage t)) c.fields keys n ∨
    ∃ ks, Recovers 4 c.fee c.nonce (Hashes.sha512_256 (signingPreimage t)) c.fields ks n ∧
      AccountsCollide c.mode c.mode (multisigScriptSpec c.required.toNat keys) (multisigScriptSpec c.required.toNat ks) := by
  obtain ⟨_, hv⟩ := (verifyOrigin_iff t n).1 hv
  rw [hc] at hv
  obtain ⟨ks, h1, _, _, h4, h5⟩ := (multi_verify_iff c _ 4 n).1 hv
  by_cases he : keys = ks
  · subst he; exact .inl h1
  · exact .inr ⟨ks, h1, accounts_collide h4.1 h4.1 hk h5 he⟩

/-- **C101** So there is a field for each key, and a field that is a key is the key at that place. -/
theorem C101_field_at (typ : UInt8) (fee nonce : UInt64) (h n : Arr 32) (fs : List AuthField) (keys : List Secp.PK)
    (hr : Recovers typ fee nonce h fs keys n) :
    fs.length = keys.length ∧ ∀ (i : Nat) (k : Secp.PK), fs[i]? = some (.pk k) → keys[i]? = some k := by
  induction hr with
  | nil => exact ⟨rfl, fun i k h => by simp at h⟩
  | pk h h' k fs ks _ ih =>
    refine ⟨by simp [ih.1], fun i k' hi => ?_⟩
    cases i with
    | zero => simpa using hi
    | succ i => exact ih.2 i k' (by simpa using hi)
  | msg h h' s k fs ks _ _ ih =>
    refine ⟨by simp [ih.1], fun i k' hi => ?_⟩
    cases i with
    | zero => simp at hi
    | succ i => exact ih.2 i k' (by simpa using hi)

/-- **C101** What becomes of an origin for some keys when any participants act, in any order: with too few
signatures `BadSignatureCount`; otherwise the account of the participants' keys in the order in which they
acted must be the account, or else `BadSigner` names both. -/
theorem C101_exact [Secp.Lawful] (t : Transaction) (keys : List Secp.PK) (qs : List Participant) (fee nonce : UInt64)
    (m : UInt8) (mode : C32.Mode) (c : MultiSig) (oversign : Bool)
    (hnew : (MultiSig.new keys fee nonce m mode : Outcome TxError MultiSig) = .ok c)
    (hc : t.auth.origin = .multi c) (hb : EncodableBody t) (hmax : qs.countP Participant.isSigner < 256)
    (hover : oversign = true → qs.countP Participant.isSigner ≤ m.toNat) (hlen : qs.length % 256 ≤ 175) :
    ∃ s got, (Signer.new t >>= fun s => walk { s with verifyOversign := oversign } qs) = .ok s ∧
      scriptSigner mode m.toNat (qs.map Participant.key) = some got ∧
      s.tx.verifyOrigin =
        if qs.countP Participant.isSigner < m.toNat then
          .err (.badSignatureCount m (UInt8.ofNat (qs.countP Participant.isSigner)))
        else if got = c.signer then .ok s.hash
        else .err (.badSigner (Hex.bytesToHex c.signer.1) (Hex.bytesToHex got.1)) := by
  obtain ⟨⟨h175, _⟩, hsig, hce⟩ := (multi_new_iff _ fee nonce m mode c).1 hnew
  have hfields : c.fields = [] := by rw [hce]
  have hreq : c.required = m := by rw [hce]
  have hmo : c.mode = mode := by rw [hce]
  have hmode : c.mode = .p2sh ∨ c.mode = .p2wsh := by
    rw [hmo]; cases mode <;> first | exact .inl rfl | exact .inr rfl | cases hsig
  have hs0 := (signer_new_iff t _).2 ⟨hb, rfl⟩
  obtain ⟨s', gs, h1, h2, h3, h4, _⟩ := walk_ok qs
    ⟨t, Hashes.sha512_256 (signingPreimage t), false, oversign, true⟩ c hc hmode (by simp)
    (fun he => by rw [hfields, hreq, List.countP_nil]; have := hover he; omega)
  have hgot : ∃ got, scriptSigner mode m.toNat (qs.map Participant.key) = some got := by
    rw [← hmo]; rcases hmode with e | e <;> rw [e] <;> exact ⟨_, rfl⟩
  obtain ⟨got, hgot⟩ := hgot
  refine ⟨s', got, by rw [hs0]; exact h1, hgot, ?_⟩
  have hsb : SameBody s'.tx t := by rw [h2]; exact sameBody_setOrigin t _ (by rw [hc]; rfl)
  have hcount : gs.countP isSignature = qs.countP Participant.isSigner := by
    have := congrArg (List.countP id) h4
    rw [List.countP_map, List.countP_map] at this
    exact this
  rw [verifyOrigin_eq _ (hsb.encodable.2 hb), hsb.preimage, spending_verdict_iff, h2]
  show SpendingVerdict _ 4 (t.auth.setOrigin _).origin _
  rw [origin_setOrigin]
  refine .multi ?_
  have hfs : ∀ (d : MultiSig) (o : Outcome TxError (Arr 32)), d = { c with fields := c.fields ++ gs } →
      MultiVerdict { c with fields := gs } (Hashes.sha512_256 (signingPreimage t)) 4 o → MultiVerdict d (Hashes.sha512_256 (signingPreimage t)) 4 o := by
    intro d o hd ho; rw [hd, hfields]; exact ho
  refine hfs _ _ rfl ?_
  have hkl : (qs.map Participant.key).length % 256 ≤ 175 := by rw [List.length_map]; exact hlen
  split
  · rename_i hlt
    have := MultiVerdict.tooFew (c := { c with fields := gs }) (h := Hashes.sha512_256 (signingPreimage t)) (typ := 4) h3
      (by show gs.countP isSignature < c.required.toNat; rw [hcount, hreq]; exact hlt)
    rw [← hcount, ← hreq]
    exact this
  · rename_i hge
    have g1 : c.required.toNat ≤ gs.countP isSignature := by rw [hcount, hreq]; omega
    have g2 : gs.countP isSignature < 256 := by rw [hcount]; exact hmax
    split
    · rename_i he
      exact MultiVerdict.valid (c := { c with fields := gs }) h3 g1 g2 (by rw [← hreq] at h175; exact h175) hkl
        (by show scriptSigner c.mode c.required.toNat _ = some c.signer; rw [hmo, hreq, hgot, he])
    · rename_i he
      rw [Hex.bytesToHex_eq, Hex.bytesToHex_eq]
      exact MultiVerdict.wrongKeys (c := { c with fields := gs }) h3 g1 g2 (by rw [← hreq] at h175; exact h175) hkl
        (by show scriptSigner c.mode c.required.toNat _ = some got; rw [hmo, hreq, hgot]) he

/-- **C101** So the result verifies only if the participants' keys are the keys of the account in the same
order, each once and none left out, or two explicit scripts collide. -/
theorem C101_order [Secp.Lawful] (t : Transaction) (keys : List Secp.PK) (qs : List Participant) (fee nonce : UInt64)
    (m : UInt8) (mode : C32.Mode) (c : MultiSig) (oversign : Bool)
    (hnew : (MultiSig.new keys fee nonce m mode : Outcome TxError MultiSig) = .ok c)
    (hc : t.auth.origin = .multi c) (hb : EncodableBody t) (hmax : qs.countP Participant.isSigner < 256)
    (hover : oversign = true → qs.countP Participant.isSigner ≤ m.toNat) (hlen : qs.length % 256 ≤ 175)
    (s : Signer) (n : Arr 32)
    (hs : (Signer.new t >>= fun s => walk { s with verifyOversign := oversign } qs) = .ok s)
    (hv : s.tx.verifyOrigin = .ok n) :
    qs.map Participant.key = keys ∨
    AccountsCollide mode mode (multisigScriptSpec m.toNat (qs.map Participant.key)) (multisigScriptSpec m.toNat keys) := by
  obtain ⟨s', got, h1, h2, h3⟩ := C101_exact t keys qs fee nonce m mode c oversign hnew hc hb hmax hover hlen
  obtain rfl : s = s' := Outcome.ok.inj (hs.symm.trans h1)
  obtain ⟨⟨h175, _⟩, hsig, _⟩ := (multi_new_iff _ fee nonce m mode c).1 hnew
  rw [h3] at hv
  split at hv
  · cases hv
  split at hv
  · rename_i he
    by_cases hk : qs.map Participant.key = keys
    · exact .inl hk
    · exact .inr (accounts_collide h175 h175 h2 (he ▸ hsig) hk)
  · cases hv

end

/-! ## The hypotheses are satisfiable -/

section
attribute [local instance] Concrete.realHashes Concrete.toySecp
local instance orderLawful : Secp.Lawful := Concrete.toyLawful

/-- The account of C50, two of three, acted on in another order. -/
def exSwapped : List Participant := [.signs (exKey 3), .absent (exKey 2), .signs (exKey 1)]

/-- The result does not verify. -/
example : ∃ s got, (Signer.new exTx3 >>= fun s => walk { s with verifyOversign := true } exSwapped) = .ok s ∧
    s.tx.verifyOrigin = .err (.badSigner (Hex.bytesToHex exTwoOfThree.signer.1) (Hex.bytesToHex got)) := by
  obtain ⟨s, got, h1, h2, h3⟩ := C101_exact exTx3 (exParts.map Participant.key) exSwapped 180 5 2 .p2sh exTwoOfThree true
    exTwoOfThree_new rfl (wf_encodable_tx _ exTx_wf).2 (by decide) (fun _ => by decide) (by decide)
  have hne : got ≠ exTwoOfThree.signer := by
    have : scriptSigner .p2sh (2 : UInt8).toNat (exSwapped.map Participant.key) ≠ some exTwoOfThree.signer := by decide +kernel
    rw [h2] at this
    exact fun he => this (by rw [he])
  rw [if_neg (by decide), if_neg hne] at h3
  exact ⟨s, got.1, h1, h3⟩

/-- In the order of the account it does, so `C101_order` and `C101_fields_in_order` apply. -/
example : ∃ s n, (Signer.new exTx3 >>= fun s => walk { s with verifyOversign := true } exParts) = .ok s ∧
    s.tx.verifyOrigin = .ok n := by
  obtain ⟨s, got, h1, h2, h3⟩ := C101_exact exTx3 (exParts.map Participant.key) exParts 180 5 2 .p2sh exTwoOfThree true
    exTwoOfThree_new rfl (wf_encodable_tx _ exTx_wf).2 (by decide) (fun _ => by decide) (by decide)
  have he : got = exTwoOfThree.signer := (Option.some.inj h2).symm
  rw [if_neg (by decide), if_pos he] at h3
  exact ⟨s, _, h1, h3⟩
example : scriptSigner exTwoOfThree.mode exTwoOfThree.required.toNat (exParts.map Participant.key) =
    some exTwoOfThree.signer := rfl

end

end Stacks.Tx
