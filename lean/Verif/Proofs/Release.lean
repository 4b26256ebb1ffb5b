import Verif.Model.Release
import Verif.Spec.Release
import Verif.Proofs.Verify

/-! # Helper lemmas: the two builds -/

namespace Stacks.Release
open Stacks.Tx Stacks.Spec

/-! ## Codecs -/

theorem encodeDrain_bits : ∀ (bits : Nat) (encoded : Bytes) (buff : UInt32) (r : Bytes × UInt32 × Nat),
    Stacks.C32.encodeDrain encoded buff bits = .ok r → r.2.2 < 5 := by
  intro bits
  induction bits using Nat.strong_induction_on with
  | _ bits ih =>
    intro encoded buff r h
    rw [Stacks.C32.encodeDrain] at h
    split at h
    · obtain ⟨ch, _, h⟩ := Outcome.bind_eq_ok.1 h
      exact ih (bits - 5) (by omega) _ _ _ h
    · cases h; simp only []; omega

theorem c32_encodeLoop_eq (l : Bytes) : ∀ (encoded : Bytes) (buff : UInt32) (bits : Nat), bits < 5 →
    C32.encodeLoop encoded buff bits l = Stacks.C32.encodeLoop encoded buff bits l := by
  induction l with
  | nil => intros; rfl
  | cons b l ih =>
    intro encoded buff bits hb
    rw [C32.encodeLoop, Stacks.C32.encodeLoop, Stacks.C32.shl32, if_pos (by omega), Outcome.ok_bind,
      Nat.mod_eq_of_lt (show bits < 32 by omega)]
    cases hd : Stacks.C32.encodeDrain encoded (buff ||| b.toUInt32 <<< UInt32.ofNat bits) (bits + 8) with
    | ok r => exact ih _ _ _ (encodeDrain_bits _ _ _ _ hd)
    | err e => rfl
    | panic => rfl

theorem decodeDrain_bits : ∀ (bits : Nat) (decoded : Bytes) (carry : UInt16),
    (Stacks.C32.decodeDrain decoded carry bits).2.2 < 8 := by
  intro bits
  induction bits using Nat.strong_induction_on with
  | _ bits ih =>
    intro decoded carry
    rw [Stacks.C32.decodeDrain]
    split
    · exact ih (bits - 8) (by omega) _ _
    · simp only []; omega

theorem c32_decodeLoop_eq (l : Bytes) : ∀ (decoded : Bytes) (carry : UInt16) (bits : Nat), bits < 8 →
    Stacks.C32.decodeLoop decoded carry bits l = .ok (C32.decodeLoop decoded carry bits l) := by
  induction l with
  | nil => intros; rfl
  | cons b l ih =>
    intro decoded carry bits hb
    rw [C32.decodeLoop, Stacks.C32.decodeLoop, Stacks.C32.shl16, if_pos (by omega), Outcome.ok_bind,
      Nat.mod_eq_of_lt (show bits < 16 by omega)]
    exact ih _ _ _ (decodeDrain_bits _ _ _)

theorem b58_encodeLoop_eq : ∀ (n : Nat) (buff : Bytes) (result : Str), Stacks.B58.loopMeasure buff = n →
    B58.encodeLoop buff result = Stacks.B58.encodeLoop buff result := by
  intro n
  induction n using Nat.strong_induction_on with
  | _ n ih =>
    intro buff result hn
    rw [B58.encodeLoop, Stacks.B58.encodeLoop]
    by_cases hb : buff = []
    · rw [dif_pos hb, dif_pos hb]
    · rw [dif_neg hb, dif_neg hb]
      have hd := B58.divLoop_eq buff 0 [] (by decide)
      have hlt := Stacks.B58.loopMeasure_lt hb hd
      split
      rename_i temp rem hd'
      rw [hd'] at hd hlt
      have hr : ∀ r : Outcome Stacks.B58.Error Str,
          (match (idx Stacks.B58.alphabet rem : Outcome Stacks.B58.Error UInt8) with
            | .ok ch => Stacks.B58.encodeLoop temp (result ++ [Char.ofNat ch.toNat])
            | .err e => .err e
            | .panic => .panic) = r →
          (match _h : Stacks.B58.divLoop buff 0 [] with
            | .ok (temp, rem) =>
              match (idx Stacks.B58.alphabet rem : Outcome Stacks.B58.Error UInt8) with
              | .ok ch => Stacks.B58.encodeLoop temp (result ++ [Char.ofNat ch.toNat])
              | .err e => .err e
              | .panic => .panic
            | .err e => .err e
            | .panic => .panic) = r := by
        intro r h
        split <;> rename_i hd2
        · rw [hd] at hd2; cases hd2; exact h
        · rw [hd] at hd2; cases hd2
        · rw [hd] at hd2; cases hd2
      refine (hr _ ?_).symm
      cases (idx Stacks.B58.alphabet rem : Outcome Stacks.B58.Error UInt8) with
      | ok ch => exact (ih _ (hn ▸ hlt) _ _ rfl).symm
      | err e => rfl
      | panic => rfl

theorem b58_mulAdd_eq (l : Bytes) : ∀ carry : Nat, carry < 2 ^ 31 →
    Stacks.B58.mulAdd l carry = .ok (B58.mulAdd l carry) := by
  induction l with
  | nil => intros; rfl
  | cons b l ih =>
    intro carry hc
    have hb := b.toNat_lt
    rw [B58.mulAdd, Stacks.B58.mulAdd, Stacks.B58.u32, if_pos (by omega), Outcome.ok_bind,
      Nat.mod_eq_of_lt (show b.toNat * 58 < 2 ^ 32 by omega),
      Nat.mod_eq_of_lt (show carry + b.toNat * 58 < 2 ^ 32 by omega), ih _ (by omega)]
    rfl

theorem byteMap_small (n : Nat) (index : Int) (h : Stacks.B58.byteMap[n]? = some index) : index < 2 ^ 31 := by
  have : ∀ i ∈ Stacks.B58.byteMap, i < 2 ^ 31 := by decide +kernel
  exact this _ (List.mem_of_getElem? h)

theorem b58_decodeLoop_eq (s : Str) : ∀ buff : Bytes,
    B58.decodeLoop buff s = Stacks.B58.decodeLoop buff s := by
  induction s with
  | nil => intros; rfl
  | cons c s ih =>
    intro buff
    rw [B58.decodeLoop, Stacks.B58.decodeLoop]
    cases hb : Stacks.B58.byteMap[c.toNat]? with
    | none => rfl
    | some index =>
      have hs := byteMap_small _ _ hb
      simp only [Outcome.orPanic, Outcome.ok_bind]
      split
      · rfl
      · split
        · rw [Outcome.ok_bind, Outcome.ok_bind, b58_mulAdd_eq _ _ (by omega), Outcome.ok_bind]
          exact ih _
        · rfl

/-! ## Several signatures -/

section
variable [Secp]

theorem multisigScript_eq (m : UInt8) (keys : List Secp.PK) :
    multisigScript m keys = multisigScriptSpec m.toNat keys := by
  unfold multisigScript multisigScriptSpec
  have e1 : m + 80 = UInt8.ofNat (80 + m.toNat) := by
    apply UInt8.toNat_inj.1
    rw [UInt8.toNat_add, UInt8.toNat_ofNat', Nat.add_comm]; rfl
  have e2 : UInt8.ofNat keys.length + 80 = UInt8.ofNat (80 + keys.length) := by
    apply UInt8.toNat_inj.1
    rw [UInt8.toNat_add, UInt8.toNat_ofNat', UInt8.toNat_ofNat', show (80 : UInt8).toNat = 80 from rfl]; omega
  have e3 : (keys.flatMap fun key => UInt8.ofNat (Secp.serialize key).1.length :: (Secp.serialize key).1) =
      keys.flatMap fun k => 33 :: (Secp.serialize k).1 := by
    congr 1; funext k; rw [(Secp.serialize k).2]; rfl
  simp only [e1, e2, e3, List.cons_append, List.append_assoc, List.nil_append]

theorem countSignatures_eq (fs : List AuthField) : ∀ n : UInt16,
    countSignatures fs n = n + UInt16.ofNat (fs.countP isSignature) := by
  induction fs with
  | nil => intro n; simp [countSignatures]
  | cons f fs ih =>
    intro n
    cases f with
    | pk k => rw [countSignatures, ih, List.countP_cons_of_neg (fun h => Bool.noConfusion h)]
    | msg s =>
      rw [countSignatures, ih, List.countP_cons_of_pos (by rfl)]
      apply UInt16.toNat_inj.1
      simp only [UInt16.toNat_add, UInt16.toNat_ofNat', show (1 : UInt16).toNat = 1 from rfl]
      omega

theorem signatures_eq (c : Spending) : signatures c = UInt16.ofNat (signatureCount c) := by
  cases c with
  | single c =>
    show c.signatures = _
    unfold SingleSig.signatures signatureCount
    have : Tx.defaultSignature = noSignature := rfl
    rw [this]
    by_cases h : c.signature = noSignature <;> simp [h]
  | multi c => 
    show countSignatures c.fields 0 = _
    rw [countSignatures_eq]
    apply UInt16.toNat_inj.1
    simp [signatureCount]

variable [Hashes]

/-- The signer hash computed by `new` and `verify`. -/
theorem signer_eq {ε : Type} (mode : C32.Mode) (m : UInt8) (ks : List Secp.PK) :
    (match mode with
      | .p2sh => .ok (hashP2sh m ks)
      | .p2wsh => .ok (hashP2wsh m ks)
      | _ => .panic : Outcome ε (Arr 20)) = Outcome.orPanic (scriptSigner mode m.toNat ks) := by
  cases mode with
  | p2pkh => rfl
  | p2wpkh => rfl
  | p2sh => simp only [hashP2sh, multisigScript_eq]; rfl
  | p2wsh => simp only [hashP2wsh, multisigScript_eq, sha256Hash, (Hashes.sha256 _).2]; rfl

theorem verifyFields_ok {typ : UInt8} {fee nonce : UInt64} {h n : Arr 32} {fs : List AuthField} {ks : List Secp.PK}
    (hr : Recovers typ fee nonce h fs ks n) : ∀ (gs : List AuthField) (acc : List Secp.PK) (cnt : UInt8),
    verifyFields typ fee nonce (fs ++ gs) acc h cnt =
      verifyFields typ fee nonce gs (acc ++ ks) n (cnt + UInt8.ofNat (fs.countP isSignature)) := by
  induction hr with
  | nil h => intro gs acc cnt; simp
  | pk h h' k fs ks _ ih =>
    intro gs acc cnt
    rw [List.cons_append, verifyFields, ih, List.countP_cons_of_neg (fun h => Bool.noConfusion h), List.append_assoc,
      List.singleton_append]
  | msg h h' s k fs ks hk _ ih =>
    intro gs acc cnt
    rw [List.cons_append, verifyFields, (nextVerify_iff _ _ _ _ _ _ _).2 ⟨hk, rfl⟩]
    simp only [Outcome.mapErr, Outcome.ok_bind]
    rw [ih, List.append_assoc, List.singleton_append, List.countP_cons_of_pos (by rfl)]
    congr 1
    apply UInt8.toNat_inj.1
    simp only [UInt8.toNat_add, UInt8.toNat_ofNat', show (1 : UInt8).toNat = 1 from rfl]
    omega

/-- The ways the loop can end. -/
theorem loop_cases (typ : UInt8) (fee nonce : UInt64) (fs : List AuthField) (h : Arr 32) :
    (∃ ks n, Recovers typ fee nonce h fs ks n) ∨
    (∃ pre s post ks n x, fs = pre ++ .msg s :: post ∧
      Recovers typ fee nonce h pre ks n ∧ RecoverFails (presignDigest n typ fee nonce) s x) := by
  induction fs generalizing h with
  | nil => exact .inl ⟨[], h, .nil h⟩
  | cons f fs ih =>
    cases f with
    | pk k =>
      rcases ih h with ⟨ks, n, hr⟩ | ⟨pre, s, post, ks, n, x, rfl, h2, h3⟩
      · exact .inl ⟨_, _, .pk _ _ _ _ _ hr⟩
      · exact .inr ⟨.pk k :: pre, s, post, _, n, x, rfl, .pk _ _ _ _ _ h2, h3⟩
    | msg s =>
      rcases nextVerify_cases h typ fee nonce s with ⟨x, hx, _⟩ | ⟨k, hk, _⟩
      · exact .inr ⟨[], s, fs, [], h, x, rfl, .nil h, hx⟩
      · rcases ih (postsignDigest (presignDigest h typ fee nonce) s) with ⟨ks, n, hr⟩ | ⟨pre, s', post, ks, n, x, rfl, h2, h3⟩
        · exact .inl ⟨_, _, .msg _ _ _ _ _ _ hk hr⟩
        · exact .inr ⟨.msg s :: pre, s', post, _, n, x, rfl, .msg _ _ _ _ _ _ hk h2, h3⟩

theorem verifyMultiSig_eq (c : MultiSig) (h : Arr 32) (typ : UInt8) :
    verifyMultiSig c h typ = (verifyFields typ c.fee c.nonce c.fields [] h 0 >>= fun r =>
      if r.2.2 < c.required then .err (.badSignatureCount c.required r.2.2)
      else Outcome.orPanic (scriptSigner c.mode c.required.toNat r.1) >>= fun s =>
        if s ≠ c.signer then .err (.badSigner (Hex.bytesToHex c.signer.1) (Hex.bytesToHex s.1))
        else .ok r.2.1) := by
  unfold verifyMultiSig
  congr 1
  funext r
  rw [← signer_eq]
  rfl

theorem recovered_eq (c : MultiSig) (h n : Arr 32) (typ : UInt8) (ks : List Secp.PK)
    (hr : Recovers typ c.fee c.nonce h c.fields ks n) :
    verifyMultiSig c h typ =
      if c.fields.countP isSignature % 256 < c.required.toNat then
        .err (.badSignatureCount c.required (UInt8.ofNat (c.fields.countP isSignature % 256)))
      else Outcome.orPanic (scriptSigner c.mode c.required.toNat ks) >>= fun s =>
        if s ≠ c.signer then .err (.badSigner (Hex.bytesToHex c.signer.1) (Hex.bytesToHex s.1)) else .ok n := by
  have e := verifyFields_ok hr [] [] 0
  rw [List.append_nil] at e
  have e0 : (0 : UInt8) + UInt8.ofNat (c.fields.countP isSignature) = UInt8.ofNat (c.fields.countP isSignature % 256) := by
    apply UInt8.toNat_inj.1
    simp [UInt8.toNat_ofNat']
  rw [verifyMultiSig_eq, e, verifyFields, Outcome.ok_bind, e0]
  simp only [UInt8.lt_iff_toNat_lt, UInt8.toNat_ofNat', List.nil_append, Nat.mod_mod]

theorem wrapping_verdict {c : MultiSig} {h : Arr 32} {typ : UInt8} {o : Outcome TxError (Arr 32)}
    (hv : WrappingVerdict c h typ o) : verifyMultiSig c h typ = o := by
  cases hv with
  | @noKey pre s post ks n x hf hr hx =>
    rw [verifyMultiSig_eq, hf, verifyFields_ok hr, verifyFields, nextVerify_fails hx]; rfl
  | tooFew hr hc => rw [recovered_eq _ _ _ _ _ hr, if_pos hc]
  | wrongMode hr hc hs => rw [recovered_eq _ _ _ _ _ hr, if_neg (by omega), hs]; rfl
  | wrongKeys hr hc hs hne =>
    rw [recovered_eq _ _ _ _ _ hr, if_neg (by omega), hs, Outcome.orPanic, Outcome.ok_bind, if_pos hne,
      Hex.bytesToHex_eq, Hex.bytesToHex_eq]
  | valid hr hc hs =>
    rw [recovered_eq _ _ _ _ _ hr, if_neg (by omega), hs, Outcome.orPanic, Outcome.ok_bind, if_neg (by simp)]

theorem wrapping_exists (c : MultiSig) (h : Arr 32) (typ : UInt8) : ∃ o, WrappingVerdict c h typ o := by
  rcases loop_cases typ c.fee c.nonce c.fields h with ⟨ks, n, hr⟩ | ⟨pre, s, post, ks, n, x, h1, h2, h3⟩
  · by_cases hm : c.required.toNat ≤ c.fields.countP isSignature % 256
    · cases hs : scriptSigner c.mode c.required.toNat ks with
      | none => exact ⟨_, .wrongMode hr hm hs⟩
      | some s =>
        by_cases he : s = c.signer
        · subst he; exact ⟨_, .valid hr hm hs⟩
        · exact ⟨_, .wrongKeys hr hm hs he⟩
    · exact ⟨_, .tooFew hr (by omega)⟩
  · exact ⟨_, .noKey h1 h2 h3⟩

/-- Where the checked build does not panic, the verdicts are the same. -/
theorem verdict_agrees {c : MultiSig} {h : Arr 32} {typ : UInt8} {o : Outcome TxError (Arr 32)}
    (hv : MultiVerdict c h typ o) (hp : o ≠ .panic) : WrappingVerdict c h typ o := by
  cases hv with
  | noKey h1 _ h3 h4 => exact .noKey h1 h3 h4
  | tooMany => exact absurd rfl hp
  | tooFew hr hc =>
    have := c.required.toNat_lt
    have e : c.fields.countP isSignature % 256 = c.fields.countP isSignature := Nat.mod_eq_of_lt (by omega)
    have := WrappingVerdict.tooFew hr (by rw [e]; exact hc)
    rwa [e] at this
  | noScript => exact absurd rfl hp
  | wrongKeys hr h1 h2 _ _ h5 h6 => exact .wrongKeys hr (by rw [Nat.mod_eq_of_lt h2]; exact h1) h5 h6
  | valid hr h1 h2 _ _ h5 => exact .valid hr (by rw [Nat.mod_eq_of_lt h2]; exact h1) h5

end

end Stacks.Release
