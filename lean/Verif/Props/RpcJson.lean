import Verif.Model.RpcJson
import Verif.Proofs.Rpc
import Verif.Props.Rpc

/-! # Property C91: responses written as JSON and read back -/

namespace Stacks.Rpc
open Spec

section
variable [Http]

/-- An object whose fields have different names gives each its value. -/
theorem hasFields_obj (es : List (Str × J)) (h : (es.map (·.1)).Nodup) : HasFields (.obj es) es := by
  refine .inl ⟨es, rfl, fun f hf => ?_⟩
  induction es with
  | nil => simp at hf
  | cons e es ih =>
    simp only [List.map_cons, List.nodup_cons] at h
    rcases List.mem_cons.1 hf with rfl | hf
    · rw [List.filter_cons_of_pos (by simp), List.filter_eq_nil_iff.2]
      intro x hx he
      exact h.1 (List.mem_map.2 ⟨x, hx, eq_of_beq he⟩)
    · rw [List.filter_cons_of_neg, ih h.2 hf]
      intro he
      exact h.1 (List.mem_map.2 ⟨f, hf, (eq_of_beq he).symm⟩)

/-- **C91** Node information written as JSON reads back as it was. -/
theorem C91_node_info (r : NodeInfoResponse) : NodeInfoResponse.fromJson r.toJson = some r :=
  (nodeInfo_iff _ _).2 (hasFields_obj _ (by simp only [List.map_cons, List.map_nil]; decide +kernel))

/-- **C91** Account information written as JSON reads back as it was. -/
theorem C91_address_info (r : AddressInfoResponse) : AddressInfoResponse.fromJson r.toJson = some r :=
  (addressInfo_iff _ _).2 (hasFields_obj _ (by simp only [List.map_cons, List.map_nil]; decide +kernel))

/-- **C91** The answer to a broadcast written as JSON reads back as it was, and as the same variant. -/
theorem C91_broadcast (r : BroadcastResponse) : BroadcastResponse.fromJson r.toJson = some r := by
  cases r with
  | ok s => rfl
  | err e =>
    have h : BroadcastErr.fromJson e.toJson = some e :=
      (broadcastErr_iff _ _).2 (hasFields_obj _ (by simp only [List.map_cons, List.map_nil]; decide +kernel))
    show (match asStr e.toJson with
      | some s => some (BroadcastResponse.ok s)
      | none => match BroadcastErr.fromJson e.toJson with
        | some e => some (.err e)
        | none => none) = _
    rw [h]
    rfl

/-- **C91** The answer to a read-only call written as JSON reads back as it was, and as the same variant. -/
theorem C91_read_only (r : ReadOnlyResponse) : ReadOnlyResponse.fromJson r.toJson = some r := by
  cases r with
  | ok r =>
    have h : ReadOnlyOk.fromJson r.toJson = some r :=
      (readOnlyOk_iff _ _).2 (hasFields_obj _ (by simp only [List.map_cons, List.map_nil]; decide +kernel))
    unfold ReadOnlyResponse.fromJson ReadOnlyResponse.toJson
    rw [h]
  | err r =>
    have h : ReadOnlyErr.fromJson r.toJson = some r :=
      (readOnlyErr_iff _ _).2 (hasFields_obj _ (by simp only [List.map_cons, List.map_nil]; decide +kernel))
    have h' : ReadOnlyOk.fromJson r.toJson = none := by
      rcases hf : ReadOnlyOk.fromJson r.toJson with _ | x
      · rfl
      · rcases (readOnlyOk_iff _ _).1 hf with ⟨es, he, hes⟩ | he
        · cases he
          have := hes _ (List.mem_cons_of_mem _ List.mem_cons_self)
          have hn : (List.filter (fun e : Str × J => e.1 == "result".toList)
              [("okay".toList, Json.bool r.okay), ("cause".toList, .str r.cause)]) = [] := by
            rw [List.filter_cons_of_neg (by dsimp only; decide +kernel), List.filter_cons_of_neg (by dsimp only; decide +kernel)]
            rfl
          rw [hn] at this
          cases this
        · cases he
    unfold ReadOnlyResponse.fromJson ReadOnlyResponse.toJson
    rw [h, h']

variable [F64Finite]

/-- All rates of an estimate are finite numbers. -/
def FiniteRates : EstimateFeeResponse → Prop
  | .ok r => ∀ e ∈ r.estimations, F64Finite.finite e.fee_rate = true
  | .err _ => True

theorem feeEstimate_toJson (e : FeeEstimate) :
    (F64Finite.finite e.fee_rate = true → IsFeeEstimate e.toJson e) ∧
    (F64Finite.finite e.fee_rate = false → ∀ x, ¬ IsFeeEstimate e.toJson x) := by
  constructor
  · intro h
    refine ⟨.float e.fee_rate, .float _, ?_⟩
    unfold FeeEstimate.toJson f64ToJson
    rw [if_pos h]
    exact hasFields_obj _ (by simp only [List.map_cons, List.map_nil]; decide +kernel)
  · rintro h x ⟨rate, hr, hf⟩
    unfold FeeEstimate.toJson f64ToJson at hf
    rw [if_neg (by rw [h]; simp)] at hf
    rcases hf with ⟨es, he, hes⟩ | he
    · cases he
      have := hes _ (List.mem_cons_of_mem _ List.mem_cons_self)
      rw [List.filter_cons_of_neg (by dsimp only; decide +kernel), List.filter_cons_of_pos (by dsimp only; decide +kernel)] at this
      cases this
      cases hr
    · cases he

/-- **C91** The answer to a question for a fee written as JSON reads back as it was exactly when its rates
are finite; otherwise it does not read back at all. -/
theorem C91_estimate_fee (r : EstimateFeeResponse) :
    (FiniteRates r → EstimateFeeResponse.fromJson r.toJson = some r) ∧
    (¬ FiniteRates r → EstimateFeeResponse.fromJson r.toJson = none) := by
  cases r with
  | err s => exact ⟨fun _ => rfl, fun h => absurd trivial h⟩
  | ok r =>
    constructor
    · intro h
      have hf : FeeOk.fromJson r.toJson = some r := by
        refine (feeOk_iff _ _).2 ⟨r.estimations.map FeeEstimate.toJson, hasFields_obj _ (by
          simp only [List.map_cons, List.map_nil]; decide +kernel), ?_⟩
        have key : ∀ es : List FeeEstimate, (∀ e ∈ es, F64Finite.finite e.fee_rate = true) →
            List.Forall₂ IsFeeEstimate (es.map FeeEstimate.toJson) es := by
          intro es
          induction es with
          | nil => intro _; exact .nil
          | cons e es ih =>
            intro he
            exact .cons ((feeEstimate_toJson e).1 (he e List.mem_cons_self))
              (ih fun x hx => he x (List.mem_cons_of_mem _ hx))
        exact key _ h
      unfold EstimateFeeResponse.fromJson EstimateFeeResponse.toJson
      rw [hf]
    · intro h
      have hf : FeeOk.fromJson r.toJson = none := by
        rcases hx : FeeOk.fromJson r.toJson with _ | x
        · rfl
        · exfalso
          apply h
          obtain ⟨xs, h1, h2⟩ := (feeOk_iff _ _).1 hx
          have hxs : xs = r.estimations.map FeeEstimate.toJson := by
            rcases h1 with ⟨es, he, hes⟩ | he
            · cases he
              have := hes _ List.mem_cons_self
              rw [List.filter_cons_of_pos (by dsimp only; decide +kernel)] at this
              cases this
              rfl
            · cases he
          subst hxs
          intro e he
          obtain ⟨y, hy⟩ : ∃ y, IsFeeEstimate e.toJson y := by
            have key : ∀ (js : List J) (ys : List FeeEstimate), List.Forall₂ IsFeeEstimate js ys →
                ∀ j ∈ js, ∃ y, IsFeeEstimate j y := by
              intro js ys hh
              induction hh with
              | nil => intro j hj; cases hj
              | cons h1 _ ih =>
                intro j hj
                rcases List.mem_cons.1 hj with rfl | hj
                · exact ⟨_, h1⟩
                · exact ih j hj
            exact key _ _ h2 _ (List.mem_map.2 ⟨e, he, rfl⟩)
          by_contra hn
          exact (feeEstimate_toJson e).2 (by simpa using hn) y hy
      unfold EstimateFeeResponse.fromJson EstimateFeeResponse.toJson
      rw [hf]
      rfl

end

section
attribute [local instance] toyHttp

/-- Rates below 1000 count as finite. -/
local instance smallRates : F64Finite := ⟨fun (f : Nat) => decide (f < 1000)⟩

/-- An estimate with a finite rate reads back, one with an infinite rate does not. -/
example : FiniteRates (.ok ⟨[⟨180, (7 : Nat)⟩]⟩) ∧ ¬ FiniteRates (.ok ⟨[⟨180, (7 : Nat)⟩, ⟨1, (1000 : Nat)⟩]⟩) := by
  refine ⟨fun e he => ?_, fun h => ?_⟩
  · cases List.mem_singleton.1 he; rfl
  · have := h ⟨1, (1000 : Nat)⟩ (by simp)
    revert this; decide +kernel

/-- Read-only answers given as arrays are always read as successes. -/
example : ReadOnlyResponse.fromJson (.arr [.bool false, .str "why".toList]) =
    some (.ok ⟨false, "why".toList⟩) := by decide +kernel

end

end Stacks.Rpc
