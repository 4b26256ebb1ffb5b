import Verif.Proofs.Orders
import Verif.Concrete.ToySecp

/-! # C118: the order in which conditions and answers sort -/

namespace Stacks
open Spec Tx Rpc

/-- **C118** A comparison by keys is a total order. -/
theorem C118_total {α : Type} {cmp : α → α → Ordering} {key : α → List Nat} (h : Ranks cmp key) : TotalOrder cmp :=
  total_of_ranks h

/-- **C118** The enumerations sort by the numbers that stand for them in a transaction or an address, listed
here from the smallest: P2SH addresses before P2PKH ones, and the main chain before the test chain. -/
theorem C118_enumerations :
    (TotalOrder C32.Mode.cmp ∧ [C32.Mode.p2pkh, .p2sh, .p2wpkh, .p2wsh].Pairwise (C32.Mode.cmp · · = .lt)) ∧
    (TotalOrder C32.Version.cmp ∧ [C32.Version.mainnetP2SH, .testnetP2SH, .mainnetP2PKH, .testnetP2PKH].Pairwise
      (C32.Version.cmp · · = .lt)) ∧
    (TotalOrder B58.Version.cmp ∧ [B58.Version.mainnetP2PKH, .mainnetP2SH, .testnetP2PKH, .testnetP2SH].Pairwise
      (B58.Version.cmp · · = .lt)) ∧
    (TotalOrder TransactionVersion.cmp ∧ [TransactionVersion.mainnet, .testnet].Pairwise
      (TransactionVersion.cmp · · = .lt)) ∧
    (TotalOrder ChainID.cmp ∧ [ChainID.mainnet, .testnet].Pairwise (ChainID.cmp · · = .lt)) ∧
    (TotalOrder ConditionCode.cmp ∧ [ConditionCode.eq, .gt, .gte, .lt, .lte, .hasNot, .has].Pairwise
      (ConditionCode.cmp · · = .lt)) ∧
    (TotalOrder PostConditionMode.cmp ∧ [PostConditionMode.allow, .deny].Pairwise
      (PostConditionMode.cmp · · = .lt)) ∧
    (TotalOrder AnchorMode.cmp ∧ [AnchorMode.strict, .micro, .any].Pairwise (AnchorMode.cmp · · = .lt)) := by
  refine ⟨⟨⟨?_, ?_, ?_⟩, by decide⟩, ⟨⟨?_, ?_, ?_⟩, by decide⟩, ⟨⟨?_, ?_, ?_⟩, by decide⟩, ⟨⟨?_, ?_, ?_⟩, by decide⟩,
    ⟨⟨?_, ?_, ?_⟩, by decide⟩, ⟨⟨?_, ?_, ?_⟩, by decide⟩, ⟨⟨?_, ?_, ?_⟩, by decide⟩, ⟨⟨?_, ?_, ?_⟩, by decide⟩⟩
  all_goals first
    | (intro a b; cases a <;> cases b <;> decide)
    | (intro a b c; cases a <;> cases b <;> cases c <;> decide)

section
variable [Secp]

omit [Secp] in
/-- **C118** Single-signature conditions sort by mode, then fee, nonce, signer and signature. -/
theorem C118_single : Ranks SingleSig.cmp singleKey := by
  refine ranks_of (fun a b => ?_) (fun a b h => ?_)
  · simp only [singleKey, cmpNats_cons, cmpMode, cmpArr, then_nil]
    rfl
  · simp only [SingleSig.cmp, Ordering.then_eq_eq] at h
    obtain ⟨h1, h2, h3, h4, h5⟩ := h
    cases a; cases b
    simp only [SingleSig.mk.injEq]
    exact ⟨cmpMode_eq _ _ h1, cmpU64_eq _ _ h2, cmpU64_eq _ _ h3, cmpArr_eq _ _ h4, cmpArr_eq _ _ h5⟩

/-- **C118** Multi-signature conditions sort by mode, then fee, nonce, signer, fields and required number. -/
theorem C118_multi [Secp.Lawful] : Ranks MultiSig.cmp multiKey := by
  refine ranks_of (fun a b => ?_) (fun a b h => ?_)
  · simp only [multiKey, List.cons_append, List.nil_append, cmpNats_cons, cmpMode, cmpArr, cmpNats_fields, then_nil]
    rfl
  · simp only [MultiSig.cmp, Ordering.then_eq_eq] at h
    obtain ⟨h1, h2, h3, h4, h5, h6⟩ := h
    cases a; cases b
    simp only [MultiSig.mk.injEq]
    exact ⟨cmpMode_eq _ _ h1, cmpU64_eq _ _ h2, cmpU64_eq _ _ h3, cmpArr_eq _ _ h4,
      cmpList_eq field_eq _ _ h5, cmpU8_eq _ _ h6⟩

/-- **C118** Authorization fields sort as the bytes they are sent as. -/
theorem C118_field [Secp.Lawful] : Ranks AuthField.cmp fieldKey ∧
    ∀ a b : AuthField, a.cmp b = cmpBytes a.encode b.encode := by
  refine ⟨ranks_of (fun a b => ?_) field_eq, fun a b => ?_⟩
  · have := cmpNats_field a b [] []
    rw [List.append_nil, List.append_nil, then_nil] at this
    exact this
  · cases a <;> cases b <;> rfl

/-- **C118** Modifications sort by their kind, then by their value. -/
theorem C118_modification [Secp.Lawful] : Ranks Modification.cmp modificationKey := by
  refine ranks_of (fun a b => ?_) (fun a b h => ?_)
  · cases a <;> cases b <;> simp only [modificationKey, cmpNats_cons, cmpArr, then_nil] <;> rfl
  · cases a <;> cases b <;> first
      | (rw [cmpKey_eq _ _ h])
      | (rw [cmpArr_eq _ _ h])
      | (exact nomatch h)

end

/-- **C118** The answers of the node sort field by field in the order of their declaration, texts by their
UTF-8 bytes, and successes before failures. -/
theorem C118_answers :
    Ranks NodeInfoResponse.cmp nodeInfoKey ∧ Ranks AddressInfoResponse.cmp addressInfoKey ∧
    Ranks BroadcastResponse.cmp broadcastKey ∧ Ranks ReadOnlyResponse.cmp readOnlyKey := by
  refine ⟨ranks_of (fun a b => ?_) (fun a b h => ?_), ranks_of (fun a b => ?_) (fun a b h => ?_),
    ranks_of (fun a b => ?_) (fun a b h => ?_), ranks_of (fun a b => ?_) (fun a b h => ?_)⟩
  · simp only [nodeInfoKey, List.cons_append, List.nil_append, List.append_assoc, cmpNats_cons, cmpNats_textKey,
      cmpNats_textKey_end]
    rfl
  · simp only [NodeInfoResponse.cmp, Ordering.then_eq_eq] at h
    obtain ⟨h1, h2, h3, h4, h5, h6, h7, h8, h9, h10, h11, h12⟩ := h
    cases a; cases b
    simp only [NodeInfoResponse.mk.injEq]
    exact ⟨cmpU64_eq _ _ h1, cmpStr_eq _ _ h2, cmpU64_eq _ _ h3, cmpStr_eq _ _ h4, cmpU64_eq _ _ h5, cmpStr_eq _ _ h6,
      cmpU32_eq _ _ h7, cmpU32_eq _ _ h8, cmpU64_eq _ _ h9, cmpStr_eq _ _ h10, cmpStr_eq _ _ h11, cmpStr_eq _ _ h12⟩
  · simp only [addressInfoKey, List.cons_append, List.nil_append, List.append_assoc, cmpNats_cons, cmpNats_textKey,
      cmpNats_textKey_end]
    rfl
  · simp only [AddressInfoResponse.cmp, Ordering.then_eq_eq] at h
    obtain ⟨h1, h2, h3, h4, h5, h6⟩ := h
    cases a; cases b
    simp only [AddressInfoResponse.mk.injEq]
    exact ⟨cmpStr_eq _ _ h1, cmpStr_eq _ _ h2, cmpU64_eq _ _ h3, cmpU64_eq _ _ h4, cmpStr_eq _ _ h5, cmpStr_eq _ _ h6⟩
  · cases a <;> cases b <;>
      simp only [broadcastKey, List.append_assoc, cmpNats_cons, cmpNats_textKey, cmpNats_textKey_end] <;> rfl
  · cases a <;> cases b
    · rw [cmpStr_eq _ _ h]
    · exact nomatch h
    · exact nomatch h
    · simp only [BroadcastResponse.cmp, BroadcastErr.cmp, Ordering.then_eq_eq] at h
      rename_i a b
      cases a; cases b
      simp only [BroadcastResponse.err.injEq, BroadcastErr.mk.injEq]
      exact ⟨cmpStr_eq _ _ h.1, cmpStr_eq _ _ h.2.1, cmpStr_eq _ _ h.2.2⟩
  · cases a <;> cases b <;>
      simp only [readOnlyKey, cmpNats_cons, cmpNats_textKey_end] <;> rfl
  · cases a <;> cases b
    · simp only [ReadOnlyResponse.cmp, ReadOnlyOk.cmp, Ordering.then_eq_eq] at h
      rename_i a b
      cases a; cases b
      simp only [ReadOnlyResponse.ok.injEq, ReadOnlyOk.mk.injEq]
      exact ⟨cmpBool_eq _ _ h.1, cmpStr_eq _ _ h.2⟩
    · exact nomatch h
    · exact nomatch h
    · simp only [ReadOnlyResponse.cmp, ReadOnlyErr.cmp, Ordering.then_eq_eq] at h
      rename_i a b
      cases a; cases b
      simp only [ReadOnlyResponse.err.injEq, ReadOnlyErr.mk.injEq]
      exact ⟨cmpBool_eq _ _ h.1, cmpStr_eq _ _ h.2⟩

/-- **C118** The node writes a balance as `0x` and 32 hexadecimal digits; among such answers the one with the
smaller balance comes first. -/
theorem C118_balance (a b : AddressInfoResponse) (m n : Arr 16) (ha : a.balance = '0' :: 'x' :: HashValue.hex m)
    (hb : b.balance = '0' :: 'x' :: HashValue.hex n) (h : bytesNumber m.1 < bytesNumber n.1) : a.cmp b = .lt := by
  have h1 : cmpStr a.balance b.balance = .lt := by
    rw [ha, hb]
    have e : ∀ s : Str, Str.bytes ('0' :: 'x' :: s) = 48 :: 120 :: s.bytes := fun s => rfl
    unfold cmpStr
    rw [e, e, cmpBytes, if_neg (by decide), if_neg (by decide), cmpBytes, if_neg (by decide), if_neg (by decide)]
    have := C90_order_hex m n
    unfold cmpStr at this
    rw [this, C90_order]
    exact Nat.compare_eq_lt.2 h
  unfold AddressInfoResponse.cmp
  rw [h1]
  rfl

section
attribute [local instance] Concrete.toySecp
local instance ordersLawful : Secp.Lawful := Concrete.toyLawful

/-- The mode decides before the fee, the fee before the nonce; a shorter list of fields comes first, whatever the
required number; a key comes before a signature; a failed broadcast comes after any success. -/
example (h : Arr 20) (s : Arr 65) (k : Secp.PK) :
    SingleSig.cmp ⟨.p2pkh, 900, 7, h, s⟩ ⟨.p2wpkh, 180, 0, h, s⟩ = .lt ∧
    SingleSig.cmp ⟨.p2pkh, 900, 0, h, s⟩ ⟨.p2pkh, 180, 7, h, s⟩ = .gt ∧
    SingleSig.cmp ⟨.p2pkh, 180, 0, h, s⟩ ⟨.p2pkh, 180, 7, h, s⟩ = .lt ∧
    MultiSig.cmp ⟨.p2sh, 180, 0, h, [.pk k], 3⟩ ⟨.p2sh, 180, 0, h, [.pk k, .msg s], 2⟩ = .lt ∧
    AuthField.cmp (.pk k) (.msg s) = .lt ∧
    BroadcastResponse.cmp (.ok "ff".toList) (.err ⟨[], [], []⟩) = .lt := by
  have hh : ∀ {n : Nat} (a : Arr n), HashValue.cmp a a = .eq := fun a => (C90_order_eq a a).2 rfl
  have hf : AuthField.cmp (.pk k) (.pk k) = .eq := (C118_field.1.eq _ _).2 rfl
  refine ⟨by rfl, by rfl, by rfl, ?_, by rfl, by rfl⟩
  simp [MultiSig.cmp, cmpList, hh, hf, cmpU64, C32.Mode.cmp, cmpU8]

/-- The hypotheses of `C118_balance` are met by balances of 16 and 255 micro-STX. -/
example : ∃ a b : AddressInfoResponse, a.balance = "0x00000000000000000000000000000010".toList ∧
    b.balance = "0x000000000000000000000000000000ff".toList ∧ a.cmp b = .lt := by
  refine ⟨⟨_, [], 0, 0, [], []⟩, ⟨_, [], 0, 0, [], []⟩, rfl, rfl, ?_⟩
  exact C118_balance _ _ ⟨List.replicate 15 0 ++ [16], rfl⟩ ⟨List.replicate 15 0 ++ [255], rfl⟩ (by decide) (by decide)
    (by decide)

end

end Stacks
