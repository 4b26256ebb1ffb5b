import Verif.Spec.Rpc
import Verif.Proofs.Basic

/-! # Lemmas about replies -/

namespace Stacks.Rpc
open Stacks.Spec

section
variable [Http]

theorem fieldValue_iff (es : List (Str × J)) (n : Str) (v : J) :
    fieldValue es n = some v ↔ es.filter (fun e => e.1 == n) = [(n, v)] := by
  unfold fieldValue
  constructor
  · intro h
    split at h
    · next e he =>
      cases h
      rw [he]
      have : e ∈ es.filter (fun e => e.1 == n) := by rw [he]; simp
      have := (List.mem_filter.1 this).2
      rw [← eq_of_beq this]
    · cases h
  · intro h; rw [h]

theorem mapM_fields_iff (es : List (Str × J)) : ∀ (names : List Str) (vs : List J),
    names.mapM (fieldValue es) = some vs ↔
      vs.length = names.length ∧ ∀ f ∈ names.zip vs, es.filter (fun e => e.1 == f.1) = [f]
  | [], vs => by cases vs <;> simp
  | n :: names, vs => by
    rw [List.mapM_cons]
    simp only [Option.bind_eq_bind, Option.bind_eq_some_iff, Option.pure_def, Option.some.injEq]
    constructor
    · rintro ⟨v, h1, ws, h2, rfl⟩
      obtain ⟨h3, h4⟩ := (mapM_fields_iff es names ws).1 h2
      refine ⟨by simp [h3], ?_⟩
      intro f hf
      rw [List.zip_cons_cons, List.mem_cons] at hf
      rcases hf with rfl | hf
      · exact (fieldValue_iff _ _ _).1 h1
      · exact h4 f hf
    · rintro ⟨h1, h2⟩
      cases vs with
      | nil => simp at h1
      | cons v vs =>
        rw [List.zip_cons_cons] at h2
        exact ⟨v, (fieldValue_iff _ _ _).2 (h2 _ List.mem_cons_self), vs,
          (mapM_fields_iff es names vs).2 ⟨by simpa using h1, fun f hf => h2 f (List.mem_cons_of_mem _ hf)⟩, rfl⟩

theorem structFields_iff (names : List Str) (j : J) (vs : List J) :
    structFields names j = some vs ↔ vs.length = names.length ∧ HasFields j (names.zip vs) := by
  have hz : vs.length = names.length → (names.zip vs).map (·.2) = vs :=
    fun h => List.map_snd_zip (Nat.le_of_eq h)
  unfold structFields HasFields
  split
  · next es =>
    rw [mapM_fields_iff]
    constructor
    · rintro ⟨h1, h2⟩; exact ⟨h1, .inl ⟨es, rfl, h2⟩⟩
    · rintro ⟨h1, ⟨es', h, h2⟩ | h⟩
      · cases h; exact ⟨h1, h2⟩
      · cases h
  · next xs =>
    constructor
    · intro h
      split at h
      · next hl => cases h; exact ⟨hl, .inr (by rw [hz hl])⟩
      · cases h
    · rintro ⟨h1, ⟨es', h, h2⟩ | h⟩
      · cases h
      · rw [hz h1] at h; cases h
        rw [if_pos h1]
  · next h1 h2 =>
    constructor
    · intro h; cases h
    · rintro ⟨_, ⟨es', h, _⟩ | h⟩
      · exact absurd h (h1 _)
      · exact absurd h (h2 _)

theorem asU64_iff (j : J) (x : UInt64) : asU64 j = some x ↔ j = .num x.toNat := by
  cases j <;> simp [asU64]
  next n =>
    constructor
    · rintro ⟨h, rfl⟩; simp [UInt64.toNat_ofNat', Nat.mod_eq_of_lt h]
    · rintro rfl; exact ⟨x.toNat_lt, UInt64.ofNat_toNat⟩

theorem asU32_iff (j : J) (x : UInt32) : asU32 j = some x ↔ j = .num x.toNat := by
  cases j <;> simp [asU32]
  next n =>
    constructor
    · rintro ⟨h, rfl⟩; simp [UInt32.toNat_ofNat', Nat.mod_eq_of_lt h]
    · rintro rfl; exact ⟨x.toNat_lt, UInt32.ofNat_toNat⟩

theorem asF64_iff (j : J) (x : Http.F64) : asF64 j = some x ↔ IsNumber j x := by
  constructor
  · intro h; cases j <;> cases h <;> constructor
  · intro h; cases h <;> rfl

theorem asBool_iff (j : J) (x : Bool) : asBool j = some x ↔ j = .bool x := by
  cases j <;> simp [asBool]

theorem asStr_iff (j : J) (x : Str) : asStr j = some x ↔ j = .str x := by
  cases j <;> simp [asStr]

omit [Http] in
theorem mapM_forall₂ {α β : Type} (f : α → Option β) (P : α → β → Prop) (h : ∀ a b, f a = some b ↔ P a b) :
    ∀ (xs : List α) (ys : List β), xs.mapM f = some ys ↔ List.Forall₂ P xs ys
  | [], ys => by cases ys <;> simp
  | x :: xs, ys => by
    rw [List.mapM_cons]
    simp only [Option.bind_eq_bind, Option.bind_eq_some_iff, Option.pure_def, Option.some.injEq]
    constructor
    · rintro ⟨y, h1, zs, h2, rfl⟩
      exact .cons ((h _ _).1 h1) ((mapM_forall₂ f P h xs zs).1 h2)
    · intro hf
      cases hf with
      | cons h1 h2 => exact ⟨_, (h _ _).2 h1, _, (mapM_forall₂ f P h xs _).2 h2, rfl⟩

theorem feeEstimate_iff (j : J) (r : FeeEstimate) : FeeEstimate.fromJson j = some r ↔ IsFeeEstimate j r := by
  unfold FeeEstimate.fromJson IsFeeEstimate
  simp only [Option.bind_eq_bind, Option.bind_eq_some_iff, structFields_iff]
  constructor
  · rintro ⟨vs, ⟨hl, hf⟩, h⟩
    match vs, hl with
    | [a, b], _ =>
      simp only [Option.bind_eq_some_iff, Option.pure_def, Option.some.injEq, asU64_iff, asF64_iff] at h
      obtain ⟨x, rfl, y, h, rfl⟩ := h
      exact ⟨b, h, hf⟩
  · rintro ⟨rate, h, hf⟩
    refine ⟨[.num r.fee.toNat, rate], ⟨rfl, hf⟩, ?_⟩
    simp only [Option.bind_eq_some_iff, Option.pure_def, Option.some.injEq, asU64_iff, asF64_iff]
    exact ⟨_, rfl, _, h, rfl⟩

theorem feeOk_iff (j : J) (r : FeeOk) : FeeOk.fromJson j = some r ↔ IsFeeOk j r := by
  have hv : ∀ (a : J) (es : List FeeEstimate), asVec FeeEstimate.fromJson a = some es ↔
      ∃ xs, a = .arr xs ∧ List.Forall₂ IsFeeEstimate xs es := by
    intro a es
    cases a <;> simp [asVec, mapM_forall₂ _ _ feeEstimate_iff]
  unfold FeeOk.fromJson IsFeeOk
  simp only [Option.bind_eq_bind, Option.bind_eq_some_iff, structFields_iff]
  constructor
  · rintro ⟨vs, ⟨hl, hf⟩, h⟩
    match vs, hl with
    | [a], _ =>
      simp only [Option.bind_eq_some_iff, Option.pure_def, Option.some.injEq, hv] at h
      obtain ⟨es, ⟨xs, rfl, h⟩, rfl⟩ := h
      exact ⟨xs, hf, h⟩
  · rintro ⟨xs, hf, h⟩
    refine ⟨[.arr xs], ⟨rfl, hf⟩, ?_⟩
    simp only [Option.bind_eq_some_iff, Option.pure_def, Option.some.injEq, hv]
    exact ⟨_, ⟨xs, rfl, h⟩, rfl⟩

theorem broadcastErr_iff (j : J) (r : BroadcastErr) : BroadcastErr.fromJson j = some r ↔ IsBroadcastErr j r := by
  unfold BroadcastErr.fromJson IsBroadcastErr
  simp only [Option.bind_eq_bind, Option.bind_eq_some_iff, structFields_iff]
  constructor
  · rintro ⟨vs, ⟨hl, hf⟩, h⟩
    match vs, hl with
    | [a, b, c], _ =>
      simp only [Option.bind_eq_some_iff, Option.pure_def, Option.some.injEq, asStr_iff] at h
      obtain ⟨x, rfl, y, rfl, z, rfl, rfl⟩ := h
      exact hf
  · intro hf
    refine ⟨[.str r.error, .str r.reason, .str r.txid], ⟨rfl, hf⟩, ?_⟩
    simp only [Option.bind_eq_some_iff, Option.pure_def, Option.some.injEq, asStr_iff]
    exact ⟨_, rfl, _, rfl, _, rfl, rfl⟩

theorem readOnlyOk_iff (j : J) (r : ReadOnlyOk) : ReadOnlyOk.fromJson j = some r ↔ IsReadOnlyOk j r := by
  unfold ReadOnlyOk.fromJson IsReadOnlyOk
  simp only [Option.bind_eq_bind, Option.bind_eq_some_iff, structFields_iff]
  constructor
  · rintro ⟨vs, ⟨hl, hf⟩, h⟩
    match vs, hl with
    | [a, b], _ =>
      simp only [Option.bind_eq_some_iff, Option.pure_def, Option.some.injEq, asStr_iff, asBool_iff] at h
      obtain ⟨x, rfl, y, rfl, rfl⟩ := h
      exact hf
  · intro hf
    refine ⟨[.bool r.okay, .str r.result], ⟨rfl, hf⟩, ?_⟩
    simp only [Option.bind_eq_some_iff, Option.pure_def, Option.some.injEq, asStr_iff, asBool_iff]
    exact ⟨_, rfl, _, rfl, rfl⟩

theorem readOnlyErr_iff (j : J) (r : ReadOnlyErr) : ReadOnlyErr.fromJson j = some r ↔ IsReadOnlyErr j r := by
  unfold ReadOnlyErr.fromJson IsReadOnlyErr
  simp only [Option.bind_eq_bind, Option.bind_eq_some_iff, structFields_iff]
  constructor
  · rintro ⟨vs, ⟨hl, hf⟩, h⟩
    match vs, hl with
    | [a, b], _ =>
      simp only [Option.bind_eq_some_iff, Option.pure_def, Option.some.injEq, asStr_iff, asBool_iff] at h
      obtain ⟨x, rfl, y, rfl, rfl⟩ := h
      exact hf
  · intro hf
    refine ⟨[.bool r.okay, .str r.cause], ⟨rfl, hf⟩, ?_⟩
    simp only [Option.bind_eq_some_iff, Option.pure_def, Option.some.injEq, asStr_iff, asBool_iff]
    exact ⟨_, rfl, _, rfl, rfl⟩

theorem addressInfo_iff (j : J) (r : AddressInfoResponse) :
    AddressInfoResponse.fromJson j = some r ↔ IsAddressInfo j r := by
  unfold AddressInfoResponse.fromJson IsAddressInfo
  simp only [Option.bind_eq_bind, Option.bind_eq_some_iff, structFields_iff]
  constructor
  · rintro ⟨vs, ⟨hl, hf⟩, h⟩
    match vs, hl with
    | [a, b, c, d, e, f], _ =>
      simp only [Option.bind_eq_some_iff, Option.pure_def, Option.some.injEq, asStr_iff, asU64_iff] at h
      obtain ⟨_, rfl, _, rfl, _, rfl, _, rfl, _, rfl, _, rfl, rfl⟩ := h
      exact hf
  · intro hf
    refine ⟨[.str r.balance, .str r.locked, .num r.unlock_height.toNat, .num r.nonce.toNat, .str r.balance_proof,
      .str r.nonce_proof], ⟨rfl, hf⟩, ?_⟩
    simp only [Option.bind_eq_some_iff, Option.pure_def, Option.some.injEq, asStr_iff, asU64_iff]
    exact ⟨_, rfl, _, rfl, _, rfl, _, rfl, _, rfl, _, rfl, rfl⟩

theorem nodeInfo_iff (j : J) (r : NodeInfoResponse) : NodeInfoResponse.fromJson j = some r ↔ IsNodeInfo j r := by
  unfold NodeInfoResponse.fromJson IsNodeInfo
  simp only [Option.bind_eq_bind, Option.bind_eq_some_iff, structFields_iff]
  constructor
  · rintro ⟨vs, ⟨hl, hf⟩, h⟩
    match vs, hl with
    | [a, b, c, d, e, f, g, h', i, k, l, m], _ =>
      simp only [Option.bind_eq_some_iff, Option.pure_def, Option.some.injEq, asStr_iff, asU64_iff, asU32_iff] at h
      obtain ⟨_, rfl, _, rfl, _, rfl, _, rfl, _, rfl, _, rfl, _, rfl, _, rfl, _, rfl, _, rfl, _, rfl, _, rfl, rfl⟩ := h
      exact hf
  · intro hf
    refine ⟨[.num r.peer_version.toNat, .str r.pox_consensus, .num r.burn_block_height.toNat,
      .str r.stable_pox_consensus, .num r.stable_burn_block_height.toNat, .str r.server_version,
      .num r.network_id.toNat, .num r.parent_network_id.toNat, .num r.stacks_tip_height.toNat, .str r.stacks_tip,
      .str r.stacks_tip_consensus_hash, .str r.genesis_chainstate_hash], ⟨rfl, hf⟩, ?_⟩
    simp only [Option.bind_eq_some_iff, Option.pure_def, Option.some.injEq, asStr_iff, asU64_iff, asU32_iff]
    exact ⟨_, rfl, _, rfl, _, rfl, _, rfl, _, rfl, _, rfl, _, rfl, _, rfl, _, rfl, _, rfl, _, rfl, _, rfl, rfl⟩

theorem readOnly_iff (j : J) (r : ReadOnlyResponse) : ReadOnlyResponse.fromJson j = some r ↔
    match r with
    | .ok x => IsReadOnlyOk j x
    | .err x => (∀ y, ¬ IsReadOnlyOk j y) ∧ IsReadOnlyErr j x := by
  unfold ReadOnlyResponse.fromJson
  cases h1 : ReadOnlyOk.fromJson j with
  | some x =>
    cases r with
    | ok y =>
      simp only [Option.some.injEq, ReadOnlyResponse.ok.injEq, ← readOnlyOk_iff, h1]
    | err y =>
      simp only [Option.some.injEq, reduceCtorEq, false_iff]
      exact fun h => h.1 x ((readOnlyOk_iff _ _).1 h1)
  | none =>
    have hn : ∀ y, ¬ IsReadOnlyOk j y := by
      intro y h; rw [← readOnlyOk_iff, h1] at h; cases h
    cases h2 : ReadOnlyErr.fromJson j with
    | some x =>
      cases r with
      | ok y => simpa using hn y
      | err y => simp only [Option.some.injEq, ReadOnlyResponse.err.injEq, ← readOnlyErr_iff, h2]; exact ⟨fun h => ⟨hn, h⟩, fun h => h.2⟩
    | none =>
      cases r with
      | ok y => simpa using hn y
      | err y => simp only [reduceCtorEq, ← readOnlyErr_iff, h2, and_false]

omit [Http] in
theorem ofExcept_ok {ε ε' α : Type} (f : ε → ε') (x : Except ε α) (a : α) : ofExcept f x = .ok a ↔ x = .ok a := by
  cases x <;> simp [ofExcept]

omit [Http] in
theorem ofExcept_no_panic {ε ε' α : Type} (f : ε → ε') (x : Except ε α) : ofExcept f x ≠ .panic := by
  cases x <;> simp [ofExcept]

theorem intoJson_iff {α : Type} (f : J → Option α) (b : Http.Body) (a : α) :
    intoJson f b = .ok a ↔ ∃ j, Http.parseJson b = .ok j ∧ f j = some a := by
  unfold intoJson
  cases Http.parseJson b with
  | error e => simp
  | ok j =>
    cases h : f j with
    | none => simp [Outcome.ofOption, h]
    | some x => simp [Outcome.ofOption, h]

theorem intoJson_no_panic {α : Type} (f : J → Option α) (b : Http.Body) : intoJson f b ≠ .panic := by
  unfold intoJson
  cases Http.parseJson b with
  | error e => simp
  | ok j => cases h : f j <;> simp [Outcome.ofOption, h]

theorem intoJson_no_ureq {α : Type} (f : J → Option α) (b : Http.Body) (x : UreqError) :
    intoJson f b ≠ .err (.ureq x) := by
  unfold intoJson
  cases Http.parseJson b with
  | error e => simp
  | ok j => cases h : f j <;> simp [Outcome.ofOption, h]

theorem ureqResult_ok (r : Reply) (b : Http.Body) :
    ureqResult r = .ok b ↔ ∃ code, code < 400 ∧ r = .response code b := by
  cases r with
  | response code body =>
    unfold ureqResult
    simp only [ge_iff_le, Reply.response.injEq]
    split
    · next h => simp only [reduceCtorEq, false_iff]; rintro ⟨c, h1, h2, _⟩; omega
    · next h => simp only [Except.ok.injEq]; exact ⟨fun e => ⟨code, by omega, rfl, e⟩, fun ⟨_, _, _, e⟩ => e⟩
  | transport e => simp [ureqResult]

end

end Stacks.Rpc
