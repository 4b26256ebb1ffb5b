import Verif.Proofs.Failures
import Verif.Props.Builder
import Verif.Props.Verify

/-! # When the calls that handle transactions report errors -/

namespace Stacks.Tx
open Stacks.Spec
open Stacks.Clarity (CV)

section
variable [Secp]

theorem fromSlice_err_iff (b : Bytes) (e : HashError Secp.Err) :
    messageSigFromSlice b = .err e ↔ b.length ≠ 65 ∧ e = .invalidMessageSigLength b.length := by
  unfold messageSigFromSlice
  split
  · rename_i h; simp [h, eq_comm]
  · rename_i h
    refine iff_of_false (copy_no_err 65 b e) (fun x => h x.1)

theorem fromRecov_no_err (r : Secp.RSig) (e : HashError Secp.Err) : messageSigFromRecov r ≠ .err e := by
  intro h
  obtain ⟨hl, _⟩ := (fromSlice_err_iff _ e).1 h
  exact hl ((List.length_append ..).trans (congrArg (1 + ·) (Secp.compact r).2.2))

theorem intoRecov_err_iff (s : Arr 65) (e : HashError Secp.Err) :
    messageSigIntoRecov s = .err e ↔ ∃ x, IntoRecovFails s x ∧ e = .secp256k1 x := by
  obtain ⟨s, hs⟩ := s
  match s, hs with
  | b :: rest, hs =>
    have hid : ∀ id : Fin 4, (UInt8.ofNat id).toNat = id := by
      intro id; rw [UInt8.toNat_ofNat', Nat.mod_eq_of_lt (by omega)]
    unfold messageSigIntoRecov
    simp only []
    rw [Clarity.idx_zero_cons, Outcome.ok_bind]
    by_cases hb : b.toNat < 4
    · have e0 : UInt8.ofNat ((⟨b.toNat, hb⟩ : Fin 4) : Nat) = b := by simp
      rw [dif_pos hb, Outcome.ok_bind, Clarity.sliceFrom_one, Outcome.ok_bind, ofExcept_err_iff]
      constructor
      · rintro ⟨x, hx, rfl⟩
        exact ⟨x, .bytes (by rw [e0]) hx, rfl⟩
      · rintro ⟨x, h, rfl⟩
        cases h with
        | id h h4 =>
          obtain ⟨rfl, _⟩ := List.cons.inj h
          omega
        | @bytes id rest' _ h hf =>
          obtain ⟨rfl, rfl⟩ := List.cons.inj h
          refine ⟨x, ?_, rfl⟩
          rw [← hf]
          congr 1
          exact Fin.ext (hid id)
    · rw [dif_neg hb, Outcome.err_bind]
      constructor
      · intro h; cases h; exact ⟨_, .id rfl (by omega), rfl⟩
      · rintro ⟨x, h, rfl⟩
        cases h with
        | id h h4 => rfl
        | @bytes id rest' _ h hf =>
          obtain ⟨rfl, rfl⟩ := List.cons.inj h
          rw [hid id] at hb
          omega

theorem signatures_no_err {ε : Type} (c : Spending) (e : ε) : (c.signatures : Outcome ε UInt16) ≠ .err e := by
  cases c with
  | single c => simp [Spending.signatures]
  | multi c =>
    show countSignatures c.fields 0 ≠ .err e
    generalize c.fields = fs
    generalize (0 : UInt16) = n
    induction fs generalizing n with
    | nil => simp [countSignatures]
    | cons f fs ih =>
      cases f with
      | pk _ => exact ih n
      | msg _ =>
        unfold countSignatures
        split
        · exact ih _
        · simp

theorem modify_err_iff (c : Spending) (m : Modification) (e : TxError) :
    c.modify m = .err e ↔ ¬ SuitsCondition c m ∧ e = .badSpendingConditionModification := by
  cases c <;> cases m <;> simp [Spending.modify, SingleSig.modify, MultiSig.modify, SuitsCondition, eq_comm]

theorem spending_err_iff (c : Spending) (e : Clarity.Error) :
    c.encode = .err e ↔ ¬ SmallSpending c ∧ e = .tryFromInt := by
  cases c with
  | single c => simp [Spending.encode, SingleSig.encode, SmallSpending]
  | multi c =>
    show MultiSig.encode c = .err e ↔ ¬ c.fields.length < 2 ^ 32 ∧ _
    refine (ok_err_iff _ _ _).trans ?_
    by_cases h : c.fields.length < 2 ^ 32
    · rw [Clarity.lenBytes_ok h]; exact iff_of_false (by simp) (fun x => x.1 h)
    · rw [Clarity.lenBytes_err h]
      exact ⟨fun x => by cases x; exact ⟨h, rfl⟩, fun x => by rw [x.2]⟩

theorem auth_err_iff (a : Auth) (e : Clarity.Error) : a.encode = .err e ↔ ¬ SmallAuth a ∧ e = .tryFromInt := by
  cases a with
  | standard o =>
    exact (ok_err_iff _ _ _).trans (spending_err_iff o e)
  | sponsored o s =>
    show (o.encode >>= fun x => s.encode >>= fun y => .ok _) = _ ↔ ¬ (SmallSpending o ∧ SmallSpending s) ∧ _
    rcases ho : o.encode with b | e' | _
    · rw [Outcome.ok_bind, ok_err_iff, spending_err_iff]
      have := ((spending_encode_iff o b).1 ho).1
      simp [this]
    · obtain ⟨h, rfl⟩ := (spending_err_iff o e').1 ho
      simp [h, eq_comm]
    · exact absurd ho (spending_encode_ne_panic o)

variable [Hashes]

theorem nextSignature_no_err (h : Arr 32) (typ : UInt8) (fee nonce : UInt64) (k : Secp.SK) (e : HashError Secp.Err) :
    nextSignature h typ fee nonce k ≠ .err e := by
  unfold nextSignature
  simp only []
  rcases hr : messageSigFromRecov (Secp.sign (makePresignHash h typ fee nonce) k) with s | e' | _
  · simp
  · exact absurd hr (fromRecov_no_err _ _)
  · exact absurd hr (fromRecov_panic _)

theorem single_new_no_err {ε : Type} (k : Secp.PK) (fee nonce : UInt64) (mode : C32.Mode) (e : ε) :
    (SingleSig.new k fee nonce mode : Outcome ε SingleSig) ≠ .err e := by
  rw [C75_single_new_exact]
  cases mode <;> simp [keySigner]

theorem multi_new_no_err {ε : Type} (ks : List Secp.PK) (fee nonce : UInt64) (m : UInt8) (mode : C32.Mode) (e : ε) :
    (MultiSig.new ks fee nonce m mode : Outcome ε MultiSig) ≠ .err e := by
  rw [C75_multi_new_exact]
  cases mode <;> simp [scriptSigner] <;> split <;> simp

theorem transfer_build_no_err {ε : Type} (b : STXTokenTransfer) (e : ε) :
    (b.transaction : Outcome ε Transaction) ≠ .err e := by
  unfold STXTokenTransfer.transaction
  simp only []
  rw [C75_single_new_exact]
  simp only [keySigner, Outcome.ok_bind]
  cases b.sponsored <;> simp

theorem call_build_err_iff (b : STXContractCall) (e : Clarity.Error) :
    b.transaction = .err e ↔ ∃ x, AddressFails b.address x ∧ e = .c32 x := by
  obtain ⟨h1, h2, h3, h4⟩ := C57_contract_call b
  simp only [← C32.address_err_iff]
  rcases hd : C32.c32AddressDecode b.address with ⟨p, v⟩ | x | _
  · refine iff_of_false ?_ (by simp)
    by_cases hl : p.length = 20
    · cases hs : b.sponsored with
      | true => rw [h3 p v hd hs]; simp
      | false =>
        obtain ⟨t, _, ht, _⟩ := h4 p v hl hd hs
        rw [ht]; simp
    · rw [h2 p v hd hl]; simp
  · rw [h1 x hd]
    simp [eq_comm]
  · exact absurd hd (C32.C11_c32_address_decode_no_panic _)

theorem transaction_hash_err_iff (t : Transaction) (e : TxError) :
    t.hash = .err e ↔ ∃ x, TransactionFails t x ∧ e = .clarity x := by
  refine (ok_err_iff _ _ _).trans ?_
  rw [mapErr_err_iff]
  simp only [C72_transaction_error_exact]

theorem newSigner_err_iff (t : Transaction) (e : TxError) :
    Signer.new t = .err e ↔ ∃ x, BodyFails t x ∧ e = .clarity x := by
  refine fails_iff_of (P := fun e => ∃ x, BodyFails t x ∧ e = .clarity x) ?_ ?_ e
  · rintro e ⟨x, h, rfl⟩; exact (C75_new_signer_exact t).1 x h
  · by_cases hb : EncodableBody t
    · exact .inl ⟨_, (C75_new_signer_exact t).2 hb⟩
    · obtain ⟨x, hx⟩ := bodyFails_exists hb
      exact .inr (.inr ⟨_, x, hx, rfl⟩)

theorem verifyOrigin_err_iff (t : Transaction) (e : TxError) : t.verifyOrigin = .err e ↔
    (∃ x, BodyFails t x ∧ e = .clarity x) ∨
    EncodableBody t ∧ SpendingVerdict (Hashes.sha512_256 (signingPreimage t)) 4 (originOf t.auth) (.err e) := by
  rw [origin_verdict_iff, ← origin_eq]
  constructor
  · intro h
    cases h with
    | body h => exact .inl ⟨_, h, rfl⟩
    | origin h1 h2 => exact .inr ⟨h1, h2⟩
  · rintro (⟨x, h, rfl⟩ | ⟨h1, h2⟩)
    · exact .body h
    · exact .origin h1 h2

theorem newSponsor_err_iff (t : Transaction) (c : Spending) (e : TxError) : Signer.newSponsor t c = .err e ↔
    ((∃ o, t.auth = .standard o) ∧ e = .badSpendingConditionModification) ∨
    ∃ o p, t.auth = .sponsored o p ∧ ((∃ x, BodyFails t x ∧ e = .clarity x) ∨
      EncodableBody t ∧ SpendingVerdict (Hashes.sha512_256 (signingPreimage t)) 4 o (.err e)) := by
  cases ha : t.auth with
  | standard o =>
    rw [(C75_new_sponsor_exact t c).1 o ha]
    simp [eq_comm]
  | sponsored o p =>
    have hv := verifyOrigin_err_iff t e
    rw [ha] at hv
    have hs := C53_origin_independent_of_sponsor t o p c ha
    obtain ⟨h1, h2, h3⟩ := (C75_new_sponsor_exact t c).2 o p ha
    constructor
    · intro h
      refine .inr ⟨o, p, rfl, hv.1 ?_⟩
      rw [← hs]
      rcases hx : Transaction.verifyOrigin { t with auth := .sponsored o c } with n | e' | _
      · rw [h1 n ((origin_verdict_iff _ _).1 hx)] at h; cases h
      · rw [h2 e' ((origin_verdict_iff _ _).1 hx)] at h; cases h; rfl
      · rw [h3 ((origin_verdict_iff _ _).1 hx)] at h; cases h
    · rintro (⟨⟨o', h⟩, _⟩ | ⟨o', p', h, hb⟩)
      · cases h
      · cases h
        exact h2 e ((origin_verdict_iff _ _).1 (hs.trans (hv.2 hb)))

theorem sign_err_iff (t : Transaction) (k : Secp.SK) (e : TxError) : t.sign k = .err e ↔
    (∃ x, BodyFails t x ∧ e = .clarity x) ∨
    (EncodableBody t ∧ signatureCount (originOf t.auth) < 65536 ∧
      requiredCount (originOf t.auth) ≤ signatureCount (originOf t.auth) ∧ e = .originOversign) ∨
    (EncodableBody t ∧ signatureCount (originOf t.auth) < requiredCount (originOf t.auth) ∧
      ¬ ModeFits (originOf t.auth) ∧ e = .badSpendingConditionModification) := by
  by_cases hb : EncodableBody t
  · rw [(C75_sign_exact t k).2 hb]
    have hn : ∀ x, ¬ BodyFails t x := fun x hx => by
      have := (C75_new_signer_exact t).1 x hx
      rw [(C75_new_signer_exact t).2 hb] at this; cases this
    have hr := requiredCount_lt (originOf t.auth)
    by_cases h1 : 65536 ≤ signatureCount (originOf t.auth)
    · rw [if_pos h1]
      refine iff_of_false (by simp) ?_
      rintro (⟨x, hx, _⟩ | ⟨_, h, _⟩ | ⟨_, h, _⟩)
      · exact hn x hx
      · omega
      · omega
    · rw [if_neg h1]
      by_cases h2 : requiredCount (originOf t.auth) ≤ signatureCount (originOf t.auth)
      · rw [if_pos h2]
        constructor
        · intro h; cases h; exact .inr (.inl ⟨hb, by omega, h2, rfl⟩)
        · rintro (⟨x, hx, _⟩ | ⟨_, _, _, rfl⟩ | ⟨_, h, _⟩)
          · exact absurd hx (hn x)
          · rfl
          · omega
      · rw [if_neg h2]
        by_cases h3 : ModeFits (originOf t.auth)
        · rw [if_pos h3]
          refine iff_of_false (by simp) ?_
          rintro (⟨x, hx, _⟩ | ⟨_, _, h, _⟩ | ⟨_, _, h, _⟩)
          · exact hn x hx
          · exact h2 h
          · exact h h3
        · rw [if_neg h3]
          constructor
          · intro h; cases h; exact .inr (.inr ⟨hb, by omega, h3, rfl⟩)
          · rintro (⟨x, hx, _⟩ | ⟨_, _, h, _⟩ | ⟨_, _, h, rfl⟩)
            · exact absurd hx (hn x)
            · exact absurd h h2
            · rfl
  · obtain ⟨x, hx⟩ := bodyFails_exists hb
    rw [(C75_sign_exact t k).1 x hx]
    constructor
    · intro h; cases h; exact .inl ⟨x, hx, rfl⟩
    · rintro (⟨y, hy, rfl⟩ | ⟨h, _⟩ | ⟨h, _⟩)
      · have h1 := (C75_sign_exact t k).1 x hx
        rw [(C75_sign_exact t k).1 y hy] at h1
        exact h1.symm
      · exact absurd h hb
      · exact absurd h hb

theorem signOrigin_err_iff (s : Signer) (k : Secp.SK) (e : TxError) : s.signOrigin k = .err e ↔
    (s.verifyOverlap = true ∧ s.originSigned = true ∧ e = .originPostSponsorSign) ∨
    (¬ (s.verifyOverlap = true ∧ s.originSigned = true) ∧ s.verifyOversign = true ∧
      signatureCount (originOf s.tx.auth) < 65536 ∧
      requiredCount (originOf s.tx.auth) ≤ signatureCount (originOf s.tx.auth) ∧ e = .originOversign) ∨
    (¬ (s.verifyOverlap = true ∧ s.originSigned = true) ∧
      (s.verifyOversign = true → signatureCount (originOf s.tx.auth) < requiredCount (originOf s.tx.auth)) ∧
      ¬ ModeFits (originOf s.tx.auth) ∧ e = .badSpendingConditionModification) := by
  rw [C75_sign_origin_exact]
  have hr := requiredCount_lt (originOf s.tx.auth)
  by_cases h1 : s.verifyOverlap = true ∧ s.originSigned = true
  · rw [if_pos h1]
    constructor
    · intro h; cases h; exact .inl ⟨h1.1, h1.2, rfl⟩
    · rintro (⟨_, _, rfl⟩ | ⟨h, _⟩ | ⟨h, _⟩)
      · rfl
      · exact absurd h1 h
      · exact absurd h1 h
  rw [if_neg h1]
  by_cases h2 : s.verifyOversign = true ∧ 65536 ≤ signatureCount (originOf s.tx.auth)
  · rw [if_pos h2]
    refine iff_of_false (by simp) ?_
    rintro (⟨h, h', _⟩ | ⟨_, _, h, _⟩ | ⟨_, h, _⟩)
    · exact h1 ⟨h, h'⟩
    · have := h2.2; omega
    · have := h h2.1; have := h2.2; omega
  rw [if_neg h2]
  by_cases h3 : s.verifyOversign = true ∧ requiredCount (originOf s.tx.auth) ≤ signatureCount (originOf s.tx.auth)
  · rw [if_pos h3]
    constructor
    · intro h; cases h
      exact .inr (.inl ⟨h1, h3.1, Nat.lt_of_not_le fun h => h2 ⟨h3.1, h⟩, h3.2, rfl⟩)
    · rintro (⟨h, h', _⟩ | ⟨_, _, _, _, rfl⟩ | ⟨_, h, _⟩)
      · exact absurd ⟨h, h'⟩ h1
      · rfl
      · have := h h3.1; have := h3.2; omega
  rw [if_neg h3]
  by_cases h4 : ModeFits (originOf s.tx.auth)
  · rw [if_pos h4]
    refine iff_of_false (by simp) ?_
    rintro (⟨h, h', _⟩ | ⟨_, h, _, h', _⟩ | ⟨_, _, h, _⟩)
    · exact h1 ⟨h, h'⟩
    · exact h3 ⟨h, h'⟩
    · exact h h4
  rw [if_neg h4]
  constructor
  · intro h; cases h
    exact .inr (.inr ⟨h1, fun h => Nat.lt_of_not_le fun h' => h3 ⟨h, h'⟩, h4, rfl⟩)
  · rintro (⟨h, h', _⟩ | ⟨_, h, _, h', _⟩ | ⟨_, _, h, rfl⟩)
    · exact absurd ⟨h, h'⟩ h1
    · exact absurd ⟨h, h'⟩ h3
    · rfl

theorem signSponsor_err_iff (s : Signer) (k : Secp.SK) (e : TxError) : s.signSponsor k = .err e ↔
    (∃ o, s.tx.auth = .standard o ∧ e = .badSpendingConditionModification) ∨
    ∃ o c, s.tx.auth = .sponsored o c ∧
      ((s.verifyOversign = true ∧ signatureCount c < 65536 ∧ requiredCount c ≤ signatureCount c ∧
        e = .sponsorOversign) ∨
      ((s.verifyOversign = true → signatureCount c < requiredCount c) ∧ ¬ ModeFits c ∧
        e = .badSpendingConditionModification)) := by
  rw [C75_sign_sponsor_exact]
  cases ha : s.tx.auth with
  | standard o =>
    constructor
    · intro h; cases h; exact .inl ⟨o, rfl, rfl⟩
    · rintro (⟨_, _, rfl⟩ | ⟨_, _, h, _⟩)
      · rfl
      · cases h
  | sponsored o c =>
    simp only []
    have hr := requiredCount_lt c
    by_cases h2 : s.verifyOversign = true ∧ 65536 ≤ signatureCount c
    · rw [if_pos h2]
      refine iff_of_false (by simp) ?_
      rintro (⟨o', h, _⟩ | ⟨o', c', h, ⟨_, h', _⟩ | ⟨h', _⟩⟩)
      · cases h
      · cases h; have := h2.2; omega
      · cases h; have := h' h2.1; have := h2.2; omega
    rw [if_neg h2]
    by_cases h3 : s.verifyOversign = true ∧ requiredCount c ≤ signatureCount c
    · rw [if_pos h3]
      constructor
      · intro h; cases h
        exact .inr ⟨o, c, rfl, .inl ⟨h3.1, Nat.lt_of_not_le fun h => h2 ⟨h3.1, h⟩, h3.2, rfl⟩⟩
      · rintro (⟨o', h, _⟩ | ⟨o', c', h, ⟨_, _, _, rfl⟩ | ⟨h', _⟩⟩)
        · cases h
        · rfl
        · cases h; have := h' h3.1; have := h3.2; omega
    rw [if_neg h3]
    by_cases h4 : ModeFits c
    · rw [if_pos h4]
      refine iff_of_false (by simp) ?_
      rintro (⟨o', h, _⟩ | ⟨o', c', h, ⟨h', _, h'', _⟩ | ⟨_, h', _⟩⟩)
      · cases h
      · cases h; exact h3 ⟨h', h''⟩
      · cases h; exact h' h4
    rw [if_neg h4]
    constructor
    · intro h; cases h
      exact .inr ⟨o, c, rfl, .inr ⟨fun h => Nat.lt_of_not_le fun h' => h3 ⟨h, h'⟩, h4, rfl⟩⟩
    · rintro (⟨o', h, _⟩ | ⟨o', c', h, ⟨h', _, h'', _⟩ | ⟨_, _, rfl⟩⟩)
      · cases h
      · cases h; exact absurd ⟨h', h''⟩ h3
      · rfl

omit [Hashes] in
theorem appendOrigin_err_iff (s : Signer) (k : Secp.PK) (e : TxError) : s.appendOrigin k = .err e ↔
    (s.verifyOverlap = true ∧ s.originSigned = true ∧ e = .originPostSponsorAppend) ∨
    (¬ (s.verifyOverlap = true ∧ s.originSigned = true) ∧
      ((∃ c, originOf s.tx.auth = .single c) ∨
       ∃ c, originOf s.tx.auth = .multi c ∧ ¬ (c.mode = .p2sh ∨ c.mode = .p2wsh)) ∧
      e = .badSpendingConditionModification) := by
  rw [C75_append_origin_exact]
  by_cases h1 : s.verifyOverlap = true ∧ s.originSigned = true
  · rw [if_pos h1]
    simp [h1.1, h1.2, eq_comm]
  rw [if_neg h1]
  have hx : ¬ (s.verifyOverlap = true ∧ s.originSigned = true ∧ e = .originPostSponsorAppend) :=
    fun h => h1 ⟨h.1, h.2.1⟩
  cases ho : originOf s.tx.auth with
  | single c =>
    constructor
    · intro h; cases h; exact .inr ⟨h1, .inl ⟨c, rfl⟩, rfl⟩
    · rintro (h | ⟨_, _, rfl⟩)
      · exact absurd h hx
      · rfl
  | multi c =>
    simp only []
    by_cases h2 : c.mode = .p2sh ∨ c.mode = .p2wsh
    · rw [if_pos h2]
      refine iff_of_false (by simp) ?_
      rintro (h | ⟨_, ⟨c', h⟩ | ⟨c', h, h'⟩, _⟩)
      · exact hx h
      · cases h
      · cases h; exact h' h2
    · rw [if_neg h2]
      constructor
      · intro h; cases h; exact .inr ⟨h1, .inr ⟨c, rfl, h2⟩, rfl⟩
      · rintro (h | ⟨_, _, rfl⟩)
        · exact absurd h hx
        · rfl

omit [Secp] in
theorem asset_err_iff (a : AssetInfo) (e : Clarity.Error) : a.encode = .err e ↔ AssetFails a e := by
  refine fails_iff_of (P := AssetFails a) (fun _ => asset_fails) ?_ e
  by_cases h : EncodableAsset a
  · exact .inl ⟨_, asset_encode_ok a h⟩
  · exact .inr (.inr (assetFails_exists h))

omit [Secp] in
theorem transferDecode_err_iff (b : Bytes) (e : Clarity.Error) : TokenTransfer.decode b = .err e ↔
    (∃ t r, b = t :: r ∧ t ≠ 0x00 ∧ e = .unexpectedType t) ∨ ∃ r, b = 0x00 :: r ∧ PayloadDecodeFails (0x00 :: r) e := by
  rcases b with _ | ⟨t, r⟩
  · simp [TokenTransfer.decode, idx]
  by_cases ht : t = 0x00
  · subst ht
    have h := (C40_dispatch 0x00 r).1 rfl
    have h' : TokenTransfer.decode (0x00 :: r) = .err e ↔ PayloadDecodeFails (0x00 :: r) e := by
      rw [← C73_payload_decode_error_exact, h]
      cases TokenTransfer.decode (0x00 :: r) <;> simp [Functor.map, Outcome.bind]
    rw [h']
    constructor
    · exact fun x => .inr ⟨r, rfl, x⟩
    · rintro (⟨t, r', hc, hne, _⟩ | ⟨r', hc, x⟩)
      · obtain ⟨rfl, _⟩ := List.cons.inj hc; exact absurd rfl hne
      · obtain ⟨_, rfl⟩ := List.cons.inj hc; exact x
  · rw [(C40_wrong_type t r).1 ht]
    constructor
    · intro h; cases h; exact .inl ⟨t, r, rfl, ht, rfl⟩
    · rintro (⟨t', r', hc, hne, rfl⟩ | ⟨r', hc, x⟩)
      · obtain ⟨rfl, _⟩ := List.cons.inj hc; rfl
      · obtain ⟨h, _⟩ := List.cons.inj hc; exact absurd h ht

omit [Secp] in
theorem callDecode_err_iff (b : Bytes) (e : Clarity.Error) : ContractCall.decode b = .err e ↔
    (∃ t r, b = t :: r ∧ t ≠ 0x02 ∧ e = .unexpectedType t) ∨ ∃ r, b = 0x02 :: r ∧ PayloadDecodeFails (0x02 :: r) e := by
  rcases b with _ | ⟨t, r⟩
  · simp [ContractCall.decode, idx]
  by_cases ht : t = 0x02
  · subst ht
    have h := (C40_dispatch 0x02 r).2.1 rfl
    have h' : ContractCall.decode (0x02 :: r) = .err e ↔ PayloadDecodeFails (0x02 :: r) e := by
      rw [← C73_payload_decode_error_exact, h]
      cases ContractCall.decode (0x02 :: r) <;> simp [Functor.map, Outcome.bind]
    rw [h']
    constructor
    · exact fun x => .inr ⟨r, rfl, x⟩
    · rintro (⟨t, r', hc, hne, _⟩ | ⟨r', hc, x⟩)
      · obtain ⟨rfl, _⟩ := List.cons.inj hc; exact absurd rfl hne
      · obtain ⟨_, rfl⟩ := List.cons.inj hc; exact x
  · rw [(C40_wrong_type t r).2 ht]
    constructor
    · intro h; cases h; exact .inl ⟨t, r, rfl, ht, rfl⟩
    · rintro (⟨t', r', hc, hne, rfl⟩ | ⟨r', hc, x⟩)
      · obtain ⟨rfl, _⟩ := List.cons.inj hc; rfl
      · obtain ⟨h, _⟩ := List.cons.inj hc; exact absurd h ht

end

end Stacks.Tx
