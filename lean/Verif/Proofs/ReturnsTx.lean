import Verif.Proofs.Returns

/-! # What calls return: transactions, wallets and the client -/

namespace Stacks
open Stacks.Spec

theorem fromRecov_ok_iff [Secp] (r : Secp.RSig) (s : Arr 65) : messageSigFromRecov r = .ok s ↔
    s.1 = UInt8.ofNat (Secp.compact r).1 :: (Secp.compact r).2.1 := fromSlice_ok_iff _ s

end Stacks

namespace Stacks.Tx
open Stacks.Spec

section
variable [Hashes]

theorem asset_ok_iff (a : AssetInfo) (b : Bytes) : a.encode = .ok b ↔ EncodableAsset a ∧ b = assetField a := by
  refine ok_iff_of (P := fun b => EncodableAsset a ∧ b = assetField a) ?_ ?_ b
  · rintro b ⟨h, rfl⟩; exact asset_encode_ok a h
  · intro b hb
    by_cases h : EncodableAsset a
    · exact ⟨_, h, rfl⟩
    · obtain ⟨e, he⟩ := assetFails_exists h
      rw [(asset_err_iff a e).2 he] at hb; cases hb

theorem condition_ok_iff (c : Condition) (b : Bytes) :
    c.encode = .ok b ↔ EncodableCondition c ∧ b = conditionBytes c := by
  refine ok_iff_of (P := fun b => EncodableCondition c ∧ b = conditionBytes c) ?_ ?_ b
  · rintro b ⟨h, rfl⟩; exact condition_encode_ok c h
  · intro b hb
    by_cases h : EncodableCondition c
    · exact ⟨_, h, rfl⟩
    · obtain ⟨e, he⟩ := conditionFails_exists h
      rw [(condition_err_iff c e).2 he] at hb; cases hb

theorem transfer_decode_ok_iff (b : Bytes) (p : TokenTransfer) : TokenTransfer.decode b = .ok p ↔
    ∃ r, WellFormedTransfer p ∧ p.memo.bytes.length = 34 ∧ b = tokenTransferBytes p ++ r := by
  have hp : WellFormedTransfer p → p.encode = .ok (tokenTransferBytes p) := fun h =>
    (payload_encode_iff (.tokenTransfer p) _).2 ⟨wf_encodablePayload (.tokenTransfer p) h, rfl⟩
  rw [C38_transfer_decode_exact]
  constructor
  · rintro ⟨h1, h2, bs, h3, r, rfl⟩
    rw [hp h1] at h3; cases h3
    exact ⟨r, h1, h2, rfl⟩
  · rintro ⟨r, h1, h2, rfl⟩
    exact ⟨h1, h2, _, hp h1, r, rfl⟩

theorem call_decode_ok_iff (b : Bytes) (p : ContractCall) : ContractCall.decode b = .ok p ↔
    ∃ r, WellFormedCall p ∧ b = contractCallBytes p ++ r := by
  rw [C39_call_decode_exact]
  constructor
  · rintro ⟨h1, bs, h3, r, rfl⟩
    rw [C39_call_layout p h1] at h3; cases h3
    exact ⟨r, h1, rfl⟩
  · rintro ⟨r, h1, rfl⟩
    exact ⟨h1, _, C39_call_layout p h1, r, rfl⟩

theorem payload_decode_ok_iff (b : Bytes) (p : Payload) : Payload.decode b = .ok p ↔
    (∃ q r, p = .tokenTransfer q ∧ WellFormedTransfer q ∧ q.memo.bytes.length = 34 ∧ b = tokenTransferBytes q ++ r) ∨
    (∃ q r, p = .contractCall q ∧ WellFormedCall q ∧ b = contractCallBytes q ++ r) := by
  have hmap : ∀ {α β : Type} (f : α → β) (o : Outcome Clarity.Error α) (y : β),
      f <$> o = .ok y ↔ ∃ a, o = .ok a ∧ y = f a := by
    intro α β f o y
    cases o with
    | ok a => exact ⟨fun h => by cases h; exact ⟨a, rfl, rfl⟩, fun ⟨a', h, h'⟩ => by cases h; rw [h']; rfl⟩
    | err e => exact iff_of_false (fun h => by cases h) (fun ⟨_, h, _⟩ => by cases h)
    | panic => exact iff_of_false (fun h => by cases h) (fun ⟨_, h, _⟩ => by cases h)
  constructor
  · intro h
    rcases b with _ | ⟨t, r⟩
    · cases h
    obtain ⟨h0, h2, hn⟩ := C40_dispatch t r
    by_cases ht : t = 0
    · rw [h0 ht, hmap] at h
      obtain ⟨q, hq, rfl⟩ := h
      obtain ⟨r', h1, h2, h3⟩ := (transfer_decode_ok_iff _ _).1 hq
      exact .inl ⟨q, r', rfl, h1, h2, h3⟩
    · by_cases ht' : t = 2
      · rw [h2 ht', hmap] at h
        obtain ⟨q, hq, rfl⟩ := h
        obtain ⟨r', h1, h3⟩ := (call_decode_ok_iff _ _).1 hq
        exact .inr ⟨q, r', rfl, h1, h3⟩
      · rw [hn ht ht'] at h; cases h
  · rintro (⟨q, r, rfl, h1, h2, rfl⟩ | ⟨q, r, rfl, h1, rfl⟩)
    · have hd := (transfer_decode_ok_iff _ q).2 ⟨r, h1, h2, rfl⟩
      obtain ⟨r', hr⟩ : ∃ r', tokenTransferBytes q ++ r = 0x00 :: r' := ⟨_, rfl⟩
      rw [hr] at hd ⊢
      rw [(C40_dispatch 0 r').1 rfl, hmap]
      exact ⟨q, hd, rfl⟩
    · have hd := (call_decode_ok_iff _ q).2 ⟨r, h1, rfl⟩
      obtain ⟨r', hr⟩ : ∃ r', contractCallBytes q ++ r = 0x02 :: r' := ⟨_, rfl⟩
      rw [hr] at hd ⊢
      rw [(C40_dispatch 2 r').2.1 rfl, hmap]
      exact ⟨q, hd, rfl⟩

end

section
variable [Secp]

theorem signatures_ok_iff {ε : Type} (c : Spending) (n : UInt16) : (c.signatures : Outcome ε UInt16) = .ok n ↔
    signatureCount c < 65536 ∧ n.toNat = signatureCount c := by
  by_cases h : signatureCount c < 65536
  · rw [signatures_ok c h]
    have ht : (UInt16.ofNat (signatureCount c)).toNat = signatureCount c := by
      rw [UInt16.toNat_ofNat']; exact Nat.mod_eq_of_lt h
    constructor
    · intro hn; cases hn; exact ⟨h, ht⟩
    · rintro ⟨_, hn⟩; congr 1; apply UInt16.toNat_inj.1; rw [ht, hn]
  · rw [signatures_panic c (by omega)]; simp [h]

theorem signatures_panic_any {ε : Type} (c : Spending) :
    (c.signatures : Outcome ε UInt16) = .panic ↔ 65536 ≤ signatureCount c := by
  by_cases h : 65536 ≤ signatureCount c
  · exact iff_of_true (signatures_panic c h) h
  · rw [signatures_ok c (by omega)]; simp [h]

variable [Hashes]

theorem single_new_ok_iff {ε : Type} (k : Secp.PK) (fee nonce : UInt64) (mode : C32.Mode) (c : SingleSig) :
    (SingleSig.new k fee nonce mode : Outcome ε SingleSig) = .ok c ↔
      ∃ s, keySigner mode k = some s ∧ c = ⟨mode, fee, nonce, s, noSignature⟩ := by
  rw [C75_single_new_exact]
  cases keySigner mode k <;> simp [eq_comm]

theorem single_new_panic_any {ε : Type} (k : Secp.PK) (fee nonce : UInt64) (mode : C32.Mode) :
    (SingleSig.new k fee nonce mode : Outcome ε SingleSig) = .panic ↔ mode = .p2sh ∨ mode = .p2wsh := by
  rw [C75_single_new_exact]
  cases mode <;> simp [keySigner]

theorem multi_new_ok_iff {ε : Type} (ks : List Secp.PK) (fee nonce : UInt64) (m : UInt8) (mode : C32.Mode) (c : MultiSig) :
    (MultiSig.new ks fee nonce m mode : Outcome ε MultiSig) = .ok c ↔
      ∃ s, m.toNat ≤ 175 ∧ ks.length % 256 ≤ 175 ∧ scriptSigner mode m.toNat ks = some s ∧
        c = ⟨mode, fee, nonce, s, [], m⟩ := by
  rw [C75_multi_new_exact]
  cases scriptSigner mode m.toNat ks with
  | none => simp
  | some s =>
    simp only []
    split
    · rename_i h; simp [h, eq_comm]
    · rename_i h
      exact iff_of_false (by simp) (fun ⟨_, h1, h2, _⟩ => h ⟨h1, h2⟩)

theorem multi_new_panic_any {ε : Type} (ks : List Secp.PK) (fee nonce : UInt64) (m : UInt8) (mode : C32.Mode) :
    (MultiSig.new ks fee nonce m mode : Outcome ε MultiSig) = .panic ↔
      (mode = .p2pkh ∨ mode = .p2wpkh) ∨ 175 < m.toNat ∨ 175 < ks.length % 256 := by
  rw [C75_multi_new_exact]
  cases mode <;> simp [scriptSigner] <;> omega

theorem hash_ok_iff (t : Transaction) (x : Arr 32) : t.hash = .ok x ↔
    (SmallAuth t.auth ∧ EncodableBody t) ∧ x = Hashes.sha512_256 (transactionBytes t) := by
  unfold Transaction.hash
  simp only [Outcome.bind_eq_ok]
  constructor
  · rintro ⟨b, h, h'⟩
    rcases he : t.encode with b' | e | _ <;> rw [he] at h <;> cases h
    obtain ⟨h1, rfl⟩ := (transaction_encode_iff t _).1 he
    cases h'; exact ⟨h1, rfl⟩
  · rintro ⟨h, rfl⟩
    exact ⟨_, by rw [(transaction_encode_iff t _).2 ⟨h, rfl⟩]; rfl, rfl⟩

theorem verifyOrigin_ok_iff (t : Transaction) (n : Arr 32) : t.verifyOrigin = .ok n ↔
    EncodableBody t ∧ SpendingVerdict (Hashes.sha512_256 (signingPreimage t)) 4 (originOf t.auth) (.ok n) := by
  rw [origin_verdict_iff, ← origin_eq]
  constructor
  · intro h
    cases h with
    | origin h1 h2 => exact ⟨h1, h2⟩
  · rintro ⟨h1, h2⟩; exact .origin h1 h2

theorem sign_ok_iff (t : Transaction) (k : Secp.SK) (u : Transaction) : t.sign k = .ok u ↔
    EncodableBody t ∧ signatureCount (originOf t.auth) < requiredCount (originOf t.auth) ∧ ModeFits (originOf t.auth) ∧
      u = { t with auth := replaceOrigin t.auth (signedBy (Hashes.sha512_256 (signingPreimage t)) 4 k (originOf t.auth)) } := by
  refine ok_iff_of (P := fun u => EncodableBody t ∧ signatureCount (originOf t.auth) < requiredCount (originOf t.auth) ∧
    ModeFits (originOf t.auth) ∧ u = { t with
      auth := replaceOrigin t.auth (signedBy (Hashes.sha512_256 (signingPreimage t)) 4 k (originOf t.auth)) }) ?_ ?_ u
  · rintro u ⟨h1, h2, h3, rfl⟩
    have := requiredCount_lt (originOf t.auth)
    rw [(C75_sign_exact t k).2 h1, if_neg (by omega), if_neg (by omega), if_pos h3]
  · intro u hu
    by_cases hb : EncodableBody t
    · rw [(C75_sign_exact t k).2 hb] at hu
      split at hu
      · cases hu
      split at hu
      · cases hu
      split at hu
      · rename_i h2 h3; exact ⟨_, hb, by omega, h3, rfl⟩
      · cases hu
    · obtain ⟨x, hx⟩ := bodyFails_exists hb
      rw [(C75_sign_exact t k).1 x hx] at hu; cases hu

theorem newSigner_ok_iff (t : Transaction) (s : Signer) : Signer.new t = .ok s ↔
    EncodableBody t ∧ s = ⟨t, Hashes.sha512_256 (signingPreimage t), false, true, true⟩ := by
  by_cases hb : EncodableBody t
  · rw [(C75_new_signer_exact t).2 hb]; simp [hb, eq_comm]
  · obtain ⟨x, hx⟩ := bodyFails_exists hb
    rw [(C75_new_signer_exact t).1 x hx]; simp [hb]

theorem newSponsor_ok_iff (t : Transaction) (c : Spending) (s : Signer) : Signer.newSponsor t c = .ok s ↔
    ∃ o p n, t.auth = .sponsored o p ∧ EncodableBody t ∧
      SpendingVerdict (Hashes.sha512_256 (signingPreimage t)) 4 o (.ok n) ∧
      s = ⟨{ t with auth := .sponsored o c }, n, true, true, true⟩ := by
  cases ha : t.auth with
  | standard o =>
    rw [(C75_new_sponsor_exact t c).1 o ha]
    simp
  | sponsored o p =>
    have hv := verifyOrigin_ok_iff t
    rw [ha] at hv
    have hs := C53_origin_independent_of_sponsor t o p c ha
    obtain ⟨h1, h2, h3⟩ := (C75_new_sponsor_exact t c).2 o p ha
    constructor
    · intro h
      rcases hx : Transaction.verifyOrigin { t with auth := .sponsored o c } with n | e' | _
      · have hn := h1 n ((origin_verdict_iff _ _).1 hx)
        rw [h] at hn
        obtain ⟨hb, hw⟩ := (hv n).1 (hs.symm.trans hx)
        exact ⟨o, p, n, rfl, hb, hw, by cases hn; rfl⟩
      · rw [h2 e' ((origin_verdict_iff _ _).1 hx)] at h; cases h
      · rw [h3 ((origin_verdict_iff _ _).1 hx)] at h; cases h
    · rintro ⟨o', p', n, h, hb, hw, rfl⟩
      cases h
      exact h1 n ((origin_verdict_iff _ _).1 (hs.trans ((hv n).2 ⟨hb, hw⟩)))

theorem signOrigin_ok_iff (s : Signer) (k : Secp.SK) (u : Signer) : s.signOrigin k = .ok u ↔
    ¬ (s.verifyOverlap = true ∧ s.originSigned = true) ∧
    (s.verifyOversign = true → signatureCount (originOf s.tx.auth) < requiredCount (originOf s.tx.auth)) ∧
    ModeFits (originOf s.tx.auth) ∧
    u = { s with
        tx := { s.tx with auth := replaceOrigin s.tx.auth (signedBy s.hash 4 k (originOf s.tx.auth)) }
        hash := chainHash s.hash 4 k (originOf s.tx.auth) } := by
  rw [C75_sign_origin_exact]
  have hr := requiredCount_lt (originOf s.tx.auth)
  by_cases h1 : s.verifyOverlap = true ∧ s.originSigned = true
  · rw [if_pos h1]; exact iff_of_false (by simp) (fun h => h.1 h1)
  rw [if_neg h1]
  by_cases h2 : s.verifyOversign = true ∧ 65536 ≤ signatureCount (originOf s.tx.auth)
  · rw [if_pos h2]
    exact iff_of_false (by simp) (fun h => by have := h.2.1 h2.1; have := h2.2; omega)
  rw [if_neg h2]
  by_cases h3 : s.verifyOversign = true ∧ requiredCount (originOf s.tx.auth) ≤ signatureCount (originOf s.tx.auth)
  · rw [if_pos h3]
    exact iff_of_false (by simp) (fun h => by have := h.2.1 h3.1; have := h3.2; omega)
  rw [if_neg h3]
  by_cases h4 : ModeFits (originOf s.tx.auth)
  · rw [if_pos h4]
    exact ⟨fun h => by cases h; exact ⟨h1, fun h => Nat.lt_of_not_le fun h' => h3 ⟨h, h'⟩, h4, rfl⟩,
      fun h => by rw [h.2.2.2]⟩
  · rw [if_neg h4]; exact iff_of_false (by simp) (fun h => h4 h.2.2.1)

theorem signSponsor_ok_iff (s : Signer) (k : Secp.SK) (u : Signer) : s.signSponsor k = .ok u ↔
    ∃ o c, s.tx.auth = .sponsored o c ∧ (s.verifyOversign = true → signatureCount c < requiredCount c) ∧ ModeFits c ∧
    u = { s with
        tx := { s.tx with auth := .sponsored o (signedBy s.hash 5 k c) }
        hash := chainHash s.hash 5 k c
        originSigned := true } := by
  rw [C75_sign_sponsor_exact]
  cases ha : s.tx.auth with
  | standard o => simp
  | sponsored o c =>
    simp only []
    have hr := requiredCount_lt c
    by_cases h2 : s.verifyOversign = true ∧ 65536 ≤ signatureCount c
    · rw [if_pos h2]
      refine iff_of_false (by simp) ?_
      rintro ⟨o', c', h, h', _⟩; cases h
      have := h' h2.1; have := h2.2; omega
    rw [if_neg h2]
    by_cases h3 : s.verifyOversign = true ∧ requiredCount c ≤ signatureCount c
    · rw [if_pos h3]
      refine iff_of_false (by simp) ?_
      rintro ⟨o', c', h, h', _⟩; cases h
      have := h' h3.1; have := h3.2; omega
    rw [if_neg h3]
    by_cases h4 : ModeFits c
    · rw [if_pos h4]
      constructor
      · intro h; cases h
        exact ⟨o, c, rfl, fun h => Nat.lt_of_not_le fun h' => h3 ⟨h, h'⟩, h4, rfl⟩
      · rintro ⟨o', c', h, _, _, rfl⟩; cases h; rfl
    · rw [if_neg h4]
      refine iff_of_false (by simp) ?_
      rintro ⟨o', c', h, _, h', _⟩; cases h; exact h4 h'

omit [Hashes] in
theorem appendOrigin_ok_iff (s : Signer) (k : Secp.PK) (u : Signer) : s.appendOrigin k = .ok u ↔
    ∃ c, ¬ (s.verifyOverlap = true ∧ s.originSigned = true) ∧ originOf s.tx.auth = .multi c ∧
      (c.mode = .p2sh ∨ c.mode = .p2wsh) ∧
      u = { s with tx := { s.tx with auth := replaceOrigin s.tx.auth (withKey (.multi c) k) } } := by
  rw [C75_append_origin_exact]
  by_cases h1 : s.verifyOverlap = true ∧ s.originSigned = true
  · rw [if_pos h1]; exact iff_of_false (by simp) (fun ⟨_, h, _⟩ => h h1)
  rw [if_neg h1]
  cases ho : originOf s.tx.auth with
  | single c => simp
  | multi c =>
    simp only []
    by_cases h2 : c.mode = .p2sh ∨ c.mode = .p2wsh
    · rw [if_pos h2]
      constructor
      · intro h; cases h; exact ⟨c, h1, rfl, h2, rfl⟩
      · rintro ⟨c', _, h, _, rfl⟩; cases h; rfl
    · rw [if_neg h2]
      refine iff_of_false (by simp) ?_
      rintro ⟨c', _, h, h', _⟩; cases h; exact h2 h'

/-- The transaction of a builder. -/
def builtTransaction (n : Network) (key : Secp.SK) (fee nonce : UInt64) (a : AnchorMode) (m : PostConditionMode)
    (cs : List Condition) (p : Payload) : Transaction :=
  ⟨networkVersion n, networkChainId n, .standard (unsignedCondition key fee nonce), a, m, cs, p⟩

omit [Secp] [Hashes] in
theorem network_eq (n : Network) : n.version = networkVersion n ∧ n.chainId = networkChainId n := by
  cases n <;> exact ⟨rfl, rfl⟩

theorem transfer_build_eq {ε : Type} (b : STXTokenTransfer) (h : b.sponsored = false) :
    (b.transaction : Outcome ε Transaction) = .ok (builtTransaction b.network b.sender b.fee b.nonce b.anchorMode
      b.postConditionMode b.postConditions (.tokenTransfer ⟨b.recipient, b.amount, b.memo⟩)) := by
  obtain ⟨⟨tv, tc, ta, tm, tp, tcs, tpl⟩, ⟨cm, cf, cn, cs, csg⟩, ht, e1, e2, e3, e4, e5, e6, e7, e8, e9, e10, e11, e12⟩ :=
    C56_token_transfer ε b h
  simp only [] at e1 e2 e3 e4 e5 e6 e7 e8 e9 e10 e11 e12
  rw [ht, e1, e2, e3, e4, e5, e6, e7, e8, e9, e10, e11, e12, (network_eq _).1, (network_eq _).2]
  rfl

theorem transfer_build_panics {ε : Type} (b : STXTokenTransfer) (h : b.sponsored = true) :
    (b.transaction : Outcome ε Transaction) = .panic := by
  unfold STXTokenTransfer.transaction
  simp only []
  rw [C75_single_new_exact]
  simp [keySigner, h]

theorem call_build_ok_iff (b : STXContractCall) (t : Transaction) : b.transaction = .ok t ↔
    ∃ h v, IsAddress b.address v h.1 ∧ b.sponsored = false ∧
      t = builtTransaction b.network b.sender b.fee b.nonce b.anchorMode b.postConditionMode b.postConditions
        (.contractCall ⟨⟨h, v⟩, b.contract, b.fnName, b.fnArgs⟩) := by
  refine ok_iff_of (P := fun t => ∃ h v, IsAddress b.address v h.1 ∧ b.sponsored = false ∧
    t = builtTransaction b.network b.sender b.fee b.nonce b.anchorMode b.postConditionMode b.postConditions
        (.contractCall ⟨⟨h, v⟩, b.contract, b.fnName, b.fnArgs⟩)) ?_ ?_ t
  · rintro t ⟨⟨h, hl⟩, v, ha, hs, rfl⟩
    obtain ⟨⟨tv, tc, ta, tm, tp, tcs, tpl⟩, ⟨cm, cf, cn, cs, csg⟩, ht, e1, e2, e3, e4, e5, e6, e7, e8, e9, e10, e11, e12⟩ :=
      (C57_contract_call b).2.2.2 h v hl (C32.decode_iff_isAddress.2 ha) hs
    simp only [] at e1 e2 e3 e4 e5 e6 e7 e8 e9 e10 e11 e12
    rw [ht, e1, e2, e3, e4, e5, e6, e7, e8, e9, e10, e11, e12, (network_eq _).1, (network_eq _).2]
    rfl
  · intro t ht
    obtain ⟨hs, bytes, v, hd, hl⟩ := (C57_ok_iff b).1 ⟨t, ht⟩
    exact ⟨_, ⟨bytes, hl⟩, v, C32.decode_iff_isAddress.1 hd, hs, rfl⟩

end

end Stacks.Tx

namespace Stacks.Rpc
open Stacks.Spec Stacks.Tx Stacks.Clarity

section
variable [Http]

theorem question_ok_iff {α : Type} (f : J → Option α) (P : J → α → Prop) (hf : ∀ j a, f j = some a ↔ P j a)
    (reply : Reply) (x : α) :
    (ofExcept Error.ureq (ureqResult reply) >>= fun body => intoJson f body) = .ok x ↔ Answers P reply x := by
  cases reply with
  | transport e =>
    exact iff_of_false (by intro h; cases h) nofun
  | response code body =>
    by_cases hc : code < 400
    · have h' : ureqResult (.response code body) = .ok body := if_neg (by omega)
      rw [h', show ofExcept Error.ureq (.ok body : Except UreqError Http.Body) = .ok body from rfl, Outcome.ok_bind,
        intoJson_iff]
      constructor
      · rintro ⟨j, h1, h2⟩; exact .body hc h1 ((hf _ _).1 h2)
      · intro h
        cases h with
        | body _ h1 h2 => exact ⟨_, h1, (hf _ _).2 h2⟩
    · have h' : ureqResult (.response code body) = .error (.status code body) := if_pos (by omega)
      rw [h']
      refine iff_of_false (by intro h; cases h) (fun h => ?_)
      cases h with
      | body h _ _ => exact hc h

variable [Hashes]

theorem readOnly_ok_iff (r : StacksRPC) (server : Request → Reply) (a c f : Str) (args : List CV) (sender : Str)
    (x : ReadOnlyResponse) : (r.readOnly server a c f args sender).result = .ok x ↔
    (∀ p ∈ args, Spec.Encodable p) ∧ Answers IsReadOnly (server (readOnlyRequest r.url a c f sender
        (args.map fun p => hexText (sip005 p)))) x := by
  simp only [← Hex.bytesToHex_eq]
  by_cases hb : ∀ p ∈ args, Spec.Encodable p
  · have hr : (r.readOnly server a c f args sender).result =
        (ofExcept Error.ureq (ureqResult (server (readOnlyRequest r.url a c f sender
          (args.map fun p => Hex.bytesToHex (sip005 p))))) >>= fun body =>
          intoJson ReadOnlyResponse.fromJson body) := by
      unfold StacksRPC.readOnly
      rw [hexAll_ok args hb]; rfl
    rw [hr, question_ok_iff _ IsReadOnly (fun j x => by rw [readOnly_iff]; cases x <;> rfl)]
    exact ⟨fun h => ⟨hb, h⟩, fun h => h.2⟩
  · refine iff_of_false ?_ (fun h => hb h.1)
    unfold StacksRPC.readOnly
    obtain ⟨x, hx⟩ := hexAll_err args hb
    rw [hx]; simp

variable [Secp]

theorem fee_ok_iff (r : StacksRPC) (server : Request → Reply) (t : Transaction) (x : EstimateFeeResponse) :
    (r.estimateFee server t).result = .ok x ↔
    SmallAuth t.auth ∧ EncodableBody t ∧ FeeAnswers (server (feeQuestion r.url (hexText (payloadBytes t.payload))
      (transactionBytes t).length)) x := by
  by_cases hb : SmallAuth t.auth ∧ EncodableBody t
  · have ht := (transaction_encode_iff t _).2 ⟨hb, rfl⟩
    have hp := (payload_encode_iff t.payload _).2 ⟨hb.2.2.2, rfl⟩
    obtain ⟨c1, c2, _⟩ := C63_estimate_fee r server t _ _ ht hp
    rw [Hex.bytesToHex_eq] at c1 c2
    cases x with
    | ok f =>
      rw [c1]
      constructor
      · rintro ⟨code, body, j, hs, h1, h2, h3⟩; rw [hs]; exact ⟨hb.1, hb.2, .body h1 h2 h3⟩
      · rintro ⟨_, _, h⟩
        generalize hs : server _ = reply at h
        cases h with
        | body h1 h2 h3 => exact ⟨_, _, _, rfl, h1, h2, h3⟩
    | err s =>
      rw [c2]
      constructor
      · rintro ⟨code, body, hs, h1, h2⟩; rw [hs]; exact ⟨hb.1, hb.2, .text h1 h2⟩
      · rintro ⟨_, _, h⟩
        generalize hs : server _ = reply at h
        cases h with
        | text h1 h2 => exact ⟨_, _, rfl, h1, h2⟩
  · refine iff_of_false (fun h => ?_) (fun h => hb ⟨h.1, h.2.1⟩)
    have : ∃ e, (r.estimateFee server t).result = .err e := by
      by_cases hp : EncodablePayload t.payload
      · rcases ht : t.encode with b | e | _
        · exact absurd ((transaction_encode_iff t b).1 ht).1 hb
        · exact ⟨_, (fee_err_iff r server t _).2 (.inr (.inl ⟨hp, e, (C72_transaction_error_exact t e).1 ht, rfl⟩))⟩
        · exact absurd ht (transaction_encode_no_panic t)
      · rcases hq : t.payload.encode with b | e | _
        · exact absurd ((payload_encode_iff _ b).1 hq).1 hp
        · exact ⟨_, (fee_err_iff r server t _).2 (.inl ⟨e, (C72_payload_error_exact _ e).1 hq, rfl⟩)⟩
        · exact absurd hq (payload_encode_ne_panic _)
    obtain ⟨e, he⟩ := this
    rw [h] at he; cases he

theorem broadcast_ok_iff (r : StacksRPC) (server : Request → Reply) (t : Transaction) (x : BroadcastResponse) :
    (r.broadcast server t).result = .ok x ↔
    SmallAuth t.auth ∧ EncodableBody t ∧ BroadcastAnswers (server (broadcastRequest r.url (transactionBytes t))) x := by
  by_cases hb : SmallAuth t.auth ∧ EncodableBody t
  · have ht := (transaction_encode_iff t _).2 ⟨hb, rfl⟩
    obtain ⟨c1, c2, _⟩ := C63_broadcast r server t _ ht
    cases x with
    | ok f =>
      rw [c1]
      constructor
      · rintro ⟨code, body, hs, h1, h2⟩; rw [hs]; exact ⟨hb.1, hb.2, .text h1 h2⟩
      · rintro ⟨_, _, h⟩
        generalize hs : server _ = reply at h
        cases h with
        | text h1 h2 => exact ⟨_, _, rfl, h1, h2⟩
    | err s =>
      rw [c2]
      constructor
      · rintro ⟨code, body, j, hs, h1, h2, h3⟩; rw [hs]; exact ⟨hb.1, hb.2, .body h1 h2 h3⟩
      · rintro ⟨_, _, h⟩
        generalize hs : server _ = reply at h
        cases h with
        | body h1 h2 h3 => exact ⟨_, _, _, rfl, h1, h2, h3⟩
  · refine iff_of_false (fun h => ?_) (fun h => hb ⟨h.1, h.2.1⟩)
    rcases ht : t.encode with b | e | _
    · exact absurd ((transaction_encode_iff t b).1 ht).1 hb
    · have := (broadcast_err_iff r server t _).2 (.inl ⟨e, (C72_transaction_error_exact t e).1 ht, rfl⟩)
      rw [h] at this; cases this
    · exact absurd ht (transaction_encode_no_panic t)

end

end Stacks.Rpc

namespace Stacks.Wallet
open Stacks.Spec

variable [Secp] [Bip]

theorem fromSecretKey_ok_iff (s : Str) (w : StacksWallet) : StacksWallet.fromSecretKey s = .ok w ↔
    ∃ m p x, Bip.parseMnemonic s = .ok m ∧ Bip.parsePath "m/44'/5757'/0'/0".toList = .ok p ∧
      Bip.deriveFromPath (Bip.toSeed m []) p = .ok x ∧ w = ⟨x, []⟩ := by
  unfold StacksWallet.fromSecretKey
  simp only [Outcome.bind_eq_ok, ofExcept_ok_iff, show stxDerivationPath = "m/44'/5757'/0'/0".toList from rfl]
  constructor
  · rintro ⟨m, h1, p, h2, x, h3, h4⟩; cases h4; exact ⟨m, p, x, h1, h2, h3, rfl⟩
  · rintro ⟨m, p, x, h1, h2, h3, rfl⟩; exact ⟨m, h1, p, h2, x, h3, rfl⟩

theorem find_some_iff (m : StacksAccounts) (i : UInt32) (a : StacksAccount) : m.find i = some a ↔
    ∃ pre post, m = pre ++ (i, a) :: post ∧ ∀ b, (i, b) ∉ pre := by
  unfold StacksAccounts.find
  induction m with
  | nil => simp
  | cons p m ih =>
    obtain ⟨j, b⟩ := p
    rw [List.lookup_cons]
    by_cases h : i = j
    · subst h
      simp only [beq_self_eq_true]
      constructor
      · intro h; cases h; exact ⟨[], m, rfl, nofun⟩
      · rintro ⟨pre, post, he, hn⟩
        rcases pre with _ | ⟨q, pre⟩
        · cases he; rfl
        · cases he; exact absurd List.mem_cons_self (hn b)
    · have hij : (i == j) = false := by simpa using h
      rw [hij]
      simp only [ih]
      constructor
      · rintro ⟨pre, post, rfl, hn⟩
        refine ⟨(j, b) :: pre, post, rfl, fun c hc => ?_⟩
        rcases List.mem_cons.1 hc with hc | hc
        · cases hc; exact h rfl
        · exact hn c hc
      · rintro ⟨pre, post, he, hn⟩
        rcases pre with _ | ⟨q, pre⟩
        · cases he; exact absurd rfl h
        · cases he
          exact ⟨pre, post, rfl, fun c hc => hn c (List.mem_cons_of_mem _ hc)⟩

theorem getAccount_ok_iff (w : StacksWallet) (i : UInt32) (a : StacksAccount) (u : StacksWallet) :
    ((w.getAccount i).1 = .ok a ∧ u = (w.getAccount i).2) ↔
    (∃ pre post, w.accounts = pre ++ (i, a) :: post ∧ (∀ b, (i, b) ∉ pre) ∧ u = w) ∨
    (∃ x, (∀ b, (i, b) ∉ w.accounts) ∧ Bip.deriveChild w.ext i = .ok x ∧ a = ⟨x, i⟩ ∧
      u = ⟨w.ext, (i, ⟨x, i⟩) :: w.accounts⟩) := by
  unfold StacksWallet.getAccount
  cases hf : w.accounts.find i with
  | some b =>
    have hx : ¬ ∀ c, (i, c) ∉ w.accounts := by rw [← find_none_iff, hf]; simp
    simp only [Outcome.ok.injEq]
    constructor
    · rintro ⟨rfl, rfl⟩
      obtain ⟨pre, post, h1, h2⟩ := (find_some_iff _ _ _).1 hf
      exact .inl ⟨pre, post, h1, h2, rfl⟩
    · rintro (⟨pre, post, h1, h2, rfl⟩ | ⟨x, h, _⟩)
      · have := (find_some_iff _ _ _).2 ⟨pre, post, h1, h2⟩
        rw [hf] at this; cases this; exact ⟨rfl, rfl⟩
      · exact absurd h hx
  | none =>
    have hn := (find_none_iff _ _).1 hf
    have hfil : w.accounts.filter (fun e => e.1 != i) = w.accounts := by
      rw [List.filter_eq_self]
      rintro ⟨j, c⟩ hc
      simp only [bne_iff_ne]
      rintro rfl; exact hn c hc
    have hno : ¬ ∃ pre post, w.accounts = pre ++ (i, a) :: post ∧ (∀ b, (i, b) ∉ pre) ∧ u = w := by
      rintro ⟨pre, post, h, _⟩; exact hn a (by rw [h]; simp)
    simp only []
    unfold StacksAccount.derive
    cases hd : Bip.deriveChild w.ext i with
    | error e =>
      simp only [ofExcept, Outcome.err_bind]
      refine iff_of_false (by simp) ?_
      rintro (h | ⟨x, _, h, _⟩)
      · exact hno h
      · cases h
    | ok x =>
      simp only [ofExcept, Outcome.ok_bind]
      show ((.ok ⟨x, i⟩ : Outcome Error StacksAccount) = .ok a ∧ u = ⟨w.ext, (i, ⟨x, i⟩) :: w.accounts.filter (fun e => e.1 != i)⟩) ↔ _
      rw [hfil]
      constructor
      · rintro ⟨h, rfl⟩; cases h; exact .inr ⟨x, hn, rfl, rfl, rfl⟩
      · rintro (h | ⟨y, _, h, rfl, rfl⟩)
        · exact absurd h hno
        · cases h; exact ⟨rfl, rfl⟩

theorem getAddress_eq [Hashes] (a : StacksAccount) (v : C32.Version) :
    a.getAddress v = .ok (addressString (versionByte v) (hash160Of (Bip.publicBytes a.ext).1).1) := by
  have hk : KnownVersion (versionByte v) := by cases v <;> decide
  have hc := (C32.address_iff (p := (hash160Of (Bip.publicBytes a.ext).1).1)).2 ⟨hk, rfl⟩
  unfold StacksAccount.getAddress
  simp only []
  rw [show v.toU8 = versionByte v by cases v <;> rfl,
    show (C32.hashP2pkh (Bip.publicBytes a.ext).1).1 = (hash160Of (Bip.publicBytes a.ext).1).1 from rfl, hc]
  rfl

end Stacks.Wallet
