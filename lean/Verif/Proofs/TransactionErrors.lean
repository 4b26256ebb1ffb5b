import Verif.Proofs.ClarityErrors
import Verif.Proofs.Transaction
import Verif.Spec.TransactionErrors

/-! # Lemmas about the errors of the encoders of payloads, post-conditions and transactions -/

namespace Stacks.Tx
open Stacks.Spec Stacks.Clarity

section
variable [Hashes]

omit [Hashes] in
/-- An encoder described by what it writes and by how it fails is described completely. -/
theorem err_iff_of {α β ε : Type} {enc : α → Outcome ε β} {P : α → Prop} {F : α → ε → Prop} {x : α}
    (hok : P x → ∃ b, enc x = .ok b) (hf : ∀ e, F x e → enc x = .err e) (hex : ¬ P x → ∃ e, F x e) (e : ε) :
    enc x = .err e ↔ F x e := by
  refine ⟨fun h => ?_, hf e⟩
  have hp : ¬ P x := fun hp => by
    obtain ⟨b, hb⟩ := hok hp
    rw [hb] at h; cases h
  obtain ⟨e', he⟩ := hex hp
  rw [hf e' he] at h
  cases h; exact he

theorem encodeFails_exists (v : CV) (h : ¬ Spec.Encodable v) : ∃ e, EncodeFails v e :=
  fails_exists _ v (Nat.lt_succ_self _) h

theorem lps_fails {s : Str} (h : 128 < s.bytes.length) : (CV.lps s).encode = .err (.badStringLength s.bytes.length 128) :=
  fails_encode (.lps h)

theorem asset_fails {i : AssetInfo} {e : Clarity.Error} (h : AssetFails i e) : i.encode = .err e := by
  rw [asset_encode]
  cases h with
  | address h => rw [fails_encode (.principalStd h)]; rfl
  | contract h1 h2 => rw [encode_ok (.principalStd i.address) h1, Outcome.ok_bind, lps_fails h2]; rfl
  | asset h1 h2 h3 =>
    rw [encode_ok (.principalStd i.address) h1, Outcome.ok_bind, encode_ok (.lps i.name) h2, Outcome.ok_bind,
      lps_fails h3]; rfl

theorem assetFails_exists {i : AssetInfo} (h : ¬ EncodableAsset i) : ∃ e, AssetFails i e := by
  by_cases h1 : DenotesAddress i.address
  · by_cases h2 : i.name.bytes.length ≤ 128
    · by_cases h3 : i.asset.bytes.length ≤ 128
      · exact absurd ⟨h1, h2, h3⟩ h
      · exact ⟨_, .asset h1 h2 (by omega)⟩
    · exact ⟨_, .contract h1 (by omega)⟩
  · obtain ⟨e, he⟩ := encodeFails_exists (.principalStd i.address) h1
    cases he with
    | principalStd h => exact ⟨_, .address h⟩

theorem principalBytes_fails {v : CV} {e : Clarity.Error} (hp : IsPrincipal v) (h : EncodeFails v e) :
    principalBytes v = .err e := by
  rcases hp with ⟨a, rfl⟩ | ⟨a, n, rfl⟩
  · rw [principalBytes_std, fails_encode h]; rfl
  · rw [principalBytes_con, fails_encode h]; rfl

theorem condition_fails {c : Condition} {e : Clarity.Error} (h : ConditionFails c e) : c.encode = .err e := by
  cases h with
  | notPrincipal h => exact condition_encode_downcast c h
  | principal hp h =>
    have := principalBytes_fails hp h
    cases c with
    | stx a n k => rw [Condition.encode, show principalBytes a = _ from this]; rfl
    | fungible a n k i => rw [Condition.encode, show principalBytes a = _ from this]; rfl
    | nonFungible a t k i => rw [Condition.encode, show principalBytes a = _ from this]; rfl
  | fungible hp he hi => rw [Condition.encode, principalBytes_ok _ hp he, Outcome.ok_bind, asset_fails hi]; rfl
  | nonFungible hp he hi => rw [Condition.encode, principalBytes_ok _ hp he, Outcome.ok_bind, asset_fails hi]; rfl
  | token hp he hi ht =>
    rw [Condition.encode, principalBytes_ok _ hp he, Outcome.ok_bind, asset_encode_ok _ hi, Outcome.ok_bind,
      fails_encode ht]; rfl

theorem conditionFails_exists {c : Condition} (h : ¬ EncodableCondition c) : ∃ e, ConditionFails c e := by
  by_cases hp : IsPrincipal (conditionAddress c)
  · by_cases he : Spec.Encodable (conditionAddress c)
    · cases c with
      | stx a n k => exact absurd ⟨hp, he⟩ h
      | fungible a n k i =>
        obtain ⟨e, hi⟩ := assetFails_exists (i := i) (fun hi => h ⟨⟨hp, he⟩, hi⟩)
        exact ⟨e, .fungible hp he hi⟩
      | nonFungible a t k i =>
        by_cases hi : EncodableAsset i
        · obtain ⟨e, ht⟩ := encodeFails_exists t (fun ht => h ⟨⟨hp, he⟩, hi, ht⟩)
          exact ⟨e, .token hp he hi ht⟩
        · obtain ⟨e, hi⟩ := assetFails_exists hi
          exact ⟨e, .nonFungible hp he hi⟩
    · obtain ⟨e, h⟩ := encodeFails_exists _ he
      exact ⟨e, .principal hp h⟩
  · exact ⟨_, .notPrincipal hp⟩

theorem condition_err_iff (c : Condition) (e : Clarity.Error) : c.encode = .err e ↔ ConditionFails c e :=
  err_iff_of (enc := Condition.encode) (P := EncodableCondition) (fun h => ⟨_, condition_encode_ok c h⟩)
    (fun _ => condition_fails) conditionFails_exists e

theorem encodeConditions_first {pre : List Condition} {c : Condition} {post : List Condition} {e : Clarity.Error}
    (hp : ∀ p ∈ pre, EncodableCondition p) (hc : c.encode = .err e) :
    encodeConditions (pre ++ c :: post) = .err e := by
  induction pre with
  | nil => rw [List.nil_append, encodeConditions, hc]; rfl
  | cons p pre ih =>
    rw [List.cons_append, encodeConditions, condition_encode_ok p (hp p (by simp)), Outcome.ok_bind,
      ih (fun q hq => hp q (by simp [hq]))]; rfl

theorem conditions_fail {cs : List Condition} {e : Clarity.Error} (h : ConditionsFail cs e) :
    postConditionsEncode cs = .err e := by
  cases h with
  | size h => rw [postConditionsEncode, lenBytes_err (Nat.not_lt.2 h)]; rfl
  | first hl hp hc =>
    rw [postConditionsEncode, lenBytes_ok hl, Outcome.ok_bind, encodeConditions_first hp (condition_fails hc)]
    rfl

theorem conditionsFail_exists {cs : List Condition}
    (h : ¬ (cs.length < 2 ^ 32 ∧ ∀ c ∈ cs, EncodableCondition c)) : ∃ e, ConditionsFail cs e := by
  by_cases hl : cs.length < 2 ^ 32
  · obtain ⟨pre, c, post, rfl, h1, h2⟩ := first_bad (fun h' => h ⟨hl, h'⟩)
    obtain ⟨e, he⟩ := conditionFails_exists h2
    exact ⟨e, .first hl h1 he⟩
  · exact ⟨_, .size (Nat.not_lt.1 hl)⟩

theorem conditions_err_iff (cs : List Condition) (e : Clarity.Error) :
    postConditionsEncode cs = .err e ↔ ConditionsFail cs e :=
  err_iff_of (enc := postConditionsEncode) (P := fun cs => cs.length < 2 ^ 32 ∧ ∀ c ∈ cs, EncodableCondition c)
    (fun h => ⟨_, (C42_conditions_layout cs _).2 ⟨h.1, h.2, rfl⟩⟩) (fun _ => conditions_fail)
    conditionsFail_exists e

theorem payload_fails {p : Payload} {e : Clarity.Error} (h : PayloadFails p e) : p.encode = .err e := by
  cases h with
  | memo h => exact C37_long_memo _ h
  | recipient h h' => exact (C37_transfer_layout _ h).2.1 _ (fails_encode h')
  | contract h => rw [Payload.encode, ContractCall.encode, lps_fails h]; rfl
  | @function p h h' =>
    rw [Payload.encode, ContractCall.encode, encode_ok (.lps p.contract) h, Outcome.ok_bind, lps_fails h']; rfl
  | @arguments p _ h h' h'' =>
    rw [Payload.encode, ContractCall.encode, encode_ok (.lps p.contract) h, Outcome.ok_bind,
      encode_ok (.lps p.name) h', Outcome.ok_bind, fails_encode h'']; rfl

theorem payloadFails_exists {p : Payload} (h : ¬ EncodablePayload p) : ∃ e, PayloadFails p e := by
  cases p with
  | tokenTransfer p =>
    by_cases hm : p.memo.bytes.length ≤ 34
    · obtain ⟨e, he⟩ := encodeFails_exists p.address (fun ha => h ⟨ha, hm⟩)
      exact ⟨e, .recipient hm he⟩
    · exact ⟨_, .memo (by omega)⟩
  | contractCall p =>
    by_cases h1 : p.contract.bytes.length ≤ 128
    · by_cases h2 : p.name.bytes.length ≤ 128
      · obtain ⟨e, he⟩ := encodeFails_exists (.fnArgs p.args) (fun ha => h ⟨h1, h2, ha.1, encodableAll_iff.1 ha.2⟩)
        exact ⟨e, .arguments h1 h2 he⟩
      · exact ⟨_, .function h1 (by omega)⟩
    · exact ⟨_, .contract (by omega)⟩

theorem payload_err_iff (p : Payload) (e : Clarity.Error) : p.encode = .err e ↔ PayloadFails p e :=
  err_iff_of (enc := Payload.encode) (P := EncodablePayload)
    (fun h => ⟨_, (payload_encode_iff p _).2 ⟨h, rfl⟩⟩) (fun _ => payload_fails) payloadFails_exists e

variable [Secp]

omit [Hashes] in
theorem auth_err {a : Auth} (h : ¬ SmallAuth a) : a.encode = .err .tryFromInt := by
  have hs : ∀ c : Spending, ¬ SmallSpending c → c.encode = .err .tryFromInt := by
    intro c hc
    cases c with
    | single c => exact absurd trivial hc
    | multi c =>
      show c.encode = _
      unfold MultiSig.encode
      rw [lenBytes_err hc]; rfl
  cases a with
  | standard o => rw [Auth.encode, hs o h]; rfl
  | sponsored o s =>
    rw [Auth.encode]
    by_cases ho : SmallSpending o
    · rw [(spending_encode_iff o _).2 ⟨ho, rfl⟩, Outcome.ok_bind, hs s (fun hs => h ⟨ho, hs⟩)]; rfl
    · rw [hs o ho]; rfl

theorem transaction_err_iff (t : Transaction) (e : Clarity.Error) : t.encode = .err e ↔ TransactionFails t e := by
  refine err_iff_of (enc := Transaction.encode) (P := fun t => SmallAuth t.auth ∧ EncodableBody t)
    (fun h => ⟨_, (transaction_encode_iff t _).2 ⟨h, rfl⟩⟩) (fun e h => ?_) (fun h => ?_) e
  · cases h with
    | auth h => rw [Transaction.encode, auth_err h]; rfl
    | conditions h h' =>
      rw [Transaction.encode, (auth_encode_iff _ _).2 ⟨h, rfl⟩, Outcome.ok_bind, conditions_fail h']; rfl
    | payload h1 h2 h3 h4 =>
      rw [Transaction.encode, (auth_encode_iff _ _).2 ⟨h1, rfl⟩, Outcome.ok_bind,
        (C42_conditions_layout _ _).2 ⟨h2, h3, rfl⟩, Outcome.ok_bind, payload_fails h4]; rfl
  · by_cases h1 : SmallAuth t.auth
    · by_cases h2 : t.postConditions.length < 2 ^ 32 ∧ ∀ c ∈ t.postConditions, EncodableCondition c
      · obtain ⟨e, he⟩ := payloadFails_exists (fun h3 => h ⟨h1, h2.1, h2.2, h3⟩)
        exact ⟨e, .payload h1 h2.1 h2.2 he⟩
      · obtain ⟨e, he⟩ := conditionsFail_exists h2
        exact ⟨e, .conditions h1 he⟩
    · exact ⟨_, .auth h1⟩

theorem bodyFails_exists {t : Transaction} (h : ¬ EncodableBody t) : ∃ e, BodyFails t e := by
  by_cases h2 : t.postConditions.length < 2 ^ 32 ∧ ∀ c ∈ t.postConditions, EncodableCondition c
  · obtain ⟨e, he⟩ := payloadFails_exists (fun h3 => h ⟨h2.1, h2.2, h3⟩)
    exact ⟨e, .payload h2.1 h2.2 he⟩
  · obtain ⟨e, he⟩ := conditionsFail_exists h2
    exact ⟨e, .conditions he⟩

theorem initialHash_fails {t : Transaction} {e : Clarity.Error} (h : BodyFails t e) :
    t.initialHash = .err (.clarity e) := by
  unfold Transaction.initialHash Transaction.hash
  have : TransactionFails { t with auth := t.auth.reset } e := by
    have hs : SmallAuth t.auth.reset := by rw [auth_reset]; exact cleared_small _
    cases h with
    | conditions h => exact .conditions hs h
    | payload h1 h2 h3 => exact .payload hs h1 h2 h3
  rw [(transaction_err_iff _ e).2 this]; rfl

theorem initialHash_err_iff (t : Transaction) (e : TxError) :
    t.initialHash = .err e ↔ ∃ e', BodyFails t e' ∧ e = .clarity e' := by
  constructor
  · intro h
    by_cases hb : EncodableBody t
    · rw [initialHash_eq t hb] at h; cases h
    · obtain ⟨e', he⟩ := bodyFails_exists hb
      rw [initialHash_fails he] at h
      exact ⟨e', he, (Outcome.err.inj h).symm⟩
  · rintro ⟨e', he, rfl⟩; exact initialHash_fails he

end

end Stacks.Tx
