import Mathlib.Tactic.Ring
import Mathlib.Tactic.FieldSimp
import Mathlib.Tactic.NormNum
import Mathlib.Tactic.Positivity
import Mathlib.Tactic.Linarith
import Verif.Spec.FeeOrder
import Verif.Proofs.Orders

/-! # Lemmas about comparing fee estimates -/

set_option exponentiation.threshold 4096

namespace Stacks
open Spec Rpc

/-! ## Floating point numbers -/

theorem writes_parts (b : UInt64) : Writes b (f64Negative b) (f64Exponent b) (f64Fraction b) := by
  have hb : b.toNat < 2 ^ 64 := b.toNat_lt
  unfold Writes f64Negative f64Exponent f64Fraction
  by_cases h : 2 ^ 63 ≤ b.toNat
  · rw [decide_eq_true h]; simp only [Bool.toNat_true]; omega
  · rw [decide_eq_false h]; simp only [Bool.toNat_false]; omega

theorem parts_of_writes {b : UInt64} {s : Bool} {e f : Nat} (h : Writes b s e f) :
    f64Negative b = s ∧ f64Exponent b = e ∧ f64Fraction b = f := by
  obtain ⟨h1, h2, h3⟩ := h
  unfold f64Negative f64Exponent f64Fraction
  cases s
  · simp only [Bool.toNat_false] at h1
    refine ⟨decide_eq_false (by omega), by omega, by omega⟩
  · simp only [Bool.toNat_true] at h1
    refine ⟨decide_eq_true (by omega), by omega, by omega⟩

theorem isNan_iff (b : UInt64) : IsNan b ↔ f64IsNan b = true := by
  unfold f64IsNan
  rw [Bool.and_eq_true, beq_iff_eq, bne_iff_ne]
  constructor
  · rintro ⟨s, f, h, hf⟩
    obtain ⟨_, h2, h3⟩ := parts_of_writes h
    exact ⟨h2, by rw [h3]; exact hf⟩
  · rintro ⟨h1, h2⟩
    have := writes_parts b
    rw [h1] at this
    exact ⟨_, _, this, h2⟩

theorem hasValue_iff (b : UInt64) (q : ℚ) :
    HasValue b q ↔ f64Exponent b < 2047 ∧ q = (f64Units b : ℚ) * 2 ^ (-1074 : ℤ) := by
  have key : f64Exponent b < 2047 → ∀ q : ℚ,
      ((0 < f64Exponent b ∧ f64Exponent b < 2047 ∧
        q = (-1) ^ (f64Negative b).toNat * 2 ^ ((f64Exponent b : ℤ) - 1023) * (1 + f64Fraction b / 2 ^ 52)) ∨
      (f64Exponent b = 0 ∧ q = (-1) ^ (f64Negative b).toNat * 2 ^ (-1022 : ℤ) * (f64Fraction b / 2 ^ 52))) ↔
      q = (f64Units b : ℚ) * 2 ^ (-1074 : ℤ) := by
    intro hlt q
    have hs : (f64Units b : ℚ) = (-1) ^ (f64Negative b).toNat * (f64Magnitude b : ℚ) := by
      unfold f64Units
      cases f64Negative b <;> simp
    rw [hs]
    unfold f64Magnitude
    by_cases h0 : f64Exponent b = 0
    · have e : (2 : ℚ) ^ (-1074 : ℤ) = 2 ^ (-1022 : ℤ) / 2 ^ 52 := by
        rw [show (-1074 : ℤ) = -1022 - 52 by norm_num, zpow_sub₀ (by norm_num)]; norm_num
      rw [if_pos h0, e]
      constructor
      · rintro (⟨h, _⟩ | ⟨_, h⟩)
        · omega
        · rw [h]; ring
      · intro h
        exact .inr ⟨h0, by rw [h]; ring⟩
    · have e : (2 : ℚ) ^ ((f64Exponent b : ℤ) - 1023) =
          2 ^ (f64Exponent b - 1) * 2 ^ (-1074 : ℤ) * 2 ^ 52 := by
        rw [← zpow_natCast, ← zpow_natCast, ← zpow_add₀ (by norm_num), ← zpow_add₀ (by norm_num)]
        congr 1
        push_cast
        omega
      rw [if_neg h0]
      push_cast
      constructor
      · rintro (⟨_, _, h⟩ | ⟨h, _⟩)
        · rw [h, e]; ring
        · exact absurd h h0
      · intro h
        refine .inl ⟨by omega, hlt, ?_⟩
        rw [h, e]; ring
  constructor
  · rintro ⟨s, e, f, hw, h⟩
    obtain ⟨rfl, rfl, rfl⟩ := parts_of_writes hw
    have hlt : f64Exponent b < 2047 := by
      rcases h with ⟨_, h, _⟩ | ⟨h, _⟩ <;> omega
    exact ⟨hlt, (key hlt q).1 h⟩
  · rintro ⟨hlt, h⟩
    exact ⟨_, _, _, writes_parts b, (key hlt q).2 h⟩

theorem isInfinity_iff (b : UInt64) (s : Bool) :
    IsInfinity b s ↔ f64Exponent b = 2047 ∧ f64Fraction b = 0 ∧ f64Negative b = s := by
  constructor
  · intro h
    obtain ⟨h1, h2, h3⟩ := parts_of_writes h
    exact ⟨h2, h3, h1⟩
  · rintro ⟨h1, h2, rfl⟩
    have := writes_parts b
    rw [h1, h2] at this
    exact this

theorem magnitude_lt {b : UInt64} (h : f64Exponent b < 2047) : f64Magnitude b < 2 ^ 52 * 2 ^ 2046 := by
  have hf : f64Fraction b < 2 ^ 52 := (writes_parts b).2.2
  unfold f64Magnitude
  split
  · exact Nat.lt_of_lt_of_le hf (Nat.le_mul_of_pos_right _ (by positivity))
  · calc (2 ^ 52 + f64Fraction b) * 2 ^ (f64Exponent b - 1)
        < 2 ^ 53 * 2 ^ (f64Exponent b - 1) := by
          apply Nat.mul_lt_mul_of_pos_right (by omega) (by positivity)
      _ ≤ 2 ^ 53 * 2 ^ 2045 := Nat.mul_le_mul_left _ (Nat.pow_le_pow_right (by norm_num) (by omega))
      _ = 2 ^ 52 * 2 ^ 2046 := by rw [← pow_add, ← pow_add]

theorem magnitude_inf {b : UInt64} {s : Bool} (h : IsInfinity b s) : f64Magnitude b = 2 ^ 52 * 2 ^ 2046 := by
  obtain ⟨h1, h2, _⟩ := (isInfinity_iff b s).1 h
  unfold f64Magnitude
  rw [if_neg (by omega), h1, h2, Nat.add_zero]

theorem not_nan_of_value {b : UInt64} {q : ℚ} (h : HasValue b q) : f64IsNan b = false := by
  obtain ⟨h, _⟩ := (hasValue_iff b q).1 h
  unfold f64IsNan
  rw [Bool.and_eq_false_iff]
  exact .inl (beq_eq_false_iff_ne.2 (by omega))

theorem not_nan_of_inf {b : UInt64} {s : Bool} (h : IsInfinity b s) : f64IsNan b = false := by
  obtain ⟨_, h, _⟩ := (isInfinity_iff b s).1 h
  unfold f64IsNan
  rw [h]
  simp

theorem f64PartialCmp_of {a b : UInt64} (ha : f64IsNan a = false) (hb : f64IsNan b = false) :
    f64PartialCmp a b = some (compare (f64Units a) (f64Units b)) := by
  unfold f64PartialCmp
  rw [ha, hb]
  rfl

theorem kinds (b : UInt64) :
    (∃ q, HasValue b q) ∨ (∃ s, IsInfinity b s) ∨ f64IsNan b = true := by
  by_cases h : f64Exponent b < 2047
  · exact .inl ⟨_, (hasValue_iff b _).2 ⟨h, rfl⟩⟩
  · have he : f64Exponent b = 2047 := by
      have := (writes_parts b).2.1
      omega
    by_cases hf : f64Fraction b = 0
    · exact .inr (.inl ⟨_, (isInfinity_iff b _).2 ⟨he, hf, rfl⟩⟩)
    · exact .inr (.inr ((isNan_iff b).1 ⟨_, _, he ▸ writes_parts b, hf⟩))

theorem units_value {b : UInt64} {q : ℚ} (h : HasValue b q) :
    -(2 ^ 52 * 2 ^ 2046 : Nat) < f64Units b ∧ f64Units b < (2 ^ 52 * 2 ^ 2046 : Nat) := by
  have := magnitude_lt ((hasValue_iff b q).1 h).1
  revert this
  generalize 2 ^ 52 * 2 ^ 2046 = m
  intro this
  unfold f64Units
  split <;> omega

theorem units_inf {b : UInt64} {s : Bool} (h : IsInfinity b s) :
    f64Units b = if s then -((2 ^ 52 * 2 ^ 2046 : Nat) : Int) else (2 ^ 52 * 2 ^ 2046 : Nat) := by
  unfold f64Units
  rw [magnitude_inf h, ((isInfinity_iff b s).1 h).2.2]

theorem units_lt {a b : UInt64} {p q : ℚ} (ha : HasValue a p) (hb : HasValue b q) :
    f64Units a < f64Units b ↔ p < q := by
  obtain ⟨_, rfl⟩ := (hasValue_iff a p).1 ha
  obtain ⟨_, rfl⟩ := (hasValue_iff b q).1 hb
  rw [mul_lt_mul_iff_left₀ (zpow_pos (by norm_num) _)]
  exact Int.cast_lt.symm

theorem units_eq {a b : UInt64} {p q : ℚ} (ha : HasValue a p) (hb : HasValue b q) :
    f64Units a = f64Units b ↔ p = q := by
  have h1 := units_lt ha hb
  have h2 := units_lt hb ha
  constructor
  · intro h
    refine le_antisymm (not_lt.1 fun g => ?_) (not_lt.1 fun g => ?_)
    · have := h2.2 g; omega
    · have := h1.2 g; omega
  · intro h
    have g1 := mt h1.1 (by rw [h]; exact lt_irrefl _)
    have g2 := mt h2.1 (by rw [h]; exact lt_irrefl _)
    omega

theorem sameRate_iff (a b : UInt64) : SameRate a b ↔ f64PartialCmp a b = some .eq := by
  constructor
  · rintro (⟨q, ha, hb⟩ | ⟨s, ha, hb⟩)
    · rw [f64PartialCmp_of (not_nan_of_value ha) (not_nan_of_value hb), (units_eq ha hb).2 rfl]
      exact congrArg some (Int.compare_eq_eq.2 rfl)
    · rw [f64PartialCmp_of (not_nan_of_inf ha) (not_nan_of_inf hb), units_inf ha, units_inf hb]
      exact congrArg some (Int.compare_eq_eq.2 rfl)
  · intro h
    rcases kinds a with ⟨p, ha⟩ | ⟨s, ha⟩ | ha
    · rcases kinds b with ⟨q, hb⟩ | ⟨t, hb⟩ | hb
      · rw [f64PartialCmp_of (not_nan_of_value ha) (not_nan_of_value hb)] at h
        have := (units_eq ha hb).1 (Int.compare_eq_eq.1 (Option.some.inj h))
        exact .inl ⟨p, ha, this ▸ hb⟩
      · rw [f64PartialCmp_of (not_nan_of_value ha) (not_nan_of_inf hb)] at h
        have h := Int.compare_eq_eq.1 (Option.some.inj h)
        have h1 := units_value ha
        rw [h, units_inf hb] at h1
        revert h1
        generalize 2 ^ 52 * 2 ^ 2046 = m
        split <;> intro <;> omega
      · unfold f64PartialCmp at h
        rw [hb, Bool.or_true] at h; cases h
    · rcases kinds b with ⟨q, hb⟩ | ⟨t, hb⟩ | hb
      · rw [f64PartialCmp_of (not_nan_of_inf ha) (not_nan_of_value hb)] at h
        have h := Int.compare_eq_eq.1 (Option.some.inj h)
        have h1 := units_value hb
        rw [← h, units_inf ha] at h1
        revert h1
        generalize 2 ^ 52 * 2 ^ 2046 = m
        split <;> intro <;> omega
      · rw [f64PartialCmp_of (not_nan_of_inf ha) (not_nan_of_inf hb)] at h
        have h := Int.compare_eq_eq.1 (Option.some.inj h)
        rw [units_inf ha, units_inf hb] at h
        have hm : 0 < 2 ^ 52 * 2 ^ 2046 := by positivity
        revert h hm
        generalize 2 ^ 52 * 2 ^ 2046 = m
        intro h hm
        refine .inr ⟨s, ha, ?_⟩
        cases s <;> cases t
        · exact hb
        · simp at h; omega
        · simp at h; omega
        · exact hb
      · unfold f64PartialCmp at h
        rw [hb, Bool.or_true] at h; cases h
    · unfold f64PartialCmp at h
      rw [ha] at h; cases h

theorem lowerRate_iff (a b : UInt64) : LowerRate a b ↔ f64PartialCmp a b = some .lt := by
  have hm : 0 < 2 ^ 52 * 2 ^ 2046 := by positivity
  constructor
  · rintro (⟨p, q, ha, hb, h⟩ | ⟨ha, ⟨q, hb⟩ | hb⟩ | ⟨⟨p, ha⟩, hb⟩)
    · rw [f64PartialCmp_of (not_nan_of_value ha) (not_nan_of_value hb)]
      exact congrArg some (Int.compare_eq_lt.2 ((units_lt ha hb).2 h))
    · rw [f64PartialCmp_of (not_nan_of_inf ha) (not_nan_of_value hb)]
      have h := units_value hb
      refine congrArg some (Int.compare_eq_lt.2 ?_)
      rw [units_inf ha]
      exact h.1
    · rw [f64PartialCmp_of (not_nan_of_inf ha) (not_nan_of_inf hb)]
      refine congrArg some (Int.compare_eq_lt.2 ?_)
      rw [units_inf ha, units_inf hb]
      revert hm
      generalize 2 ^ 52 * 2 ^ 2046 = m
      intro hm
      simp
      omega
    · rw [f64PartialCmp_of (not_nan_of_value ha) (not_nan_of_inf hb)]
      have h := units_value ha
      refine congrArg some (Int.compare_eq_lt.2 ?_)
      rw [units_inf hb]
      exact h.2
  · intro h
    rcases kinds a with ⟨p, ha⟩ | ⟨s, ha⟩ | ha
    · rcases kinds b with ⟨q, hb⟩ | ⟨t, hb⟩ | hb
      · rw [f64PartialCmp_of (not_nan_of_value ha) (not_nan_of_value hb)] at h
        exact .inl ⟨p, q, ha, hb, (units_lt ha hb).1 (Int.compare_eq_lt.1 (Option.some.inj h))⟩
      · cases t with
        | false => exact .inr (.inr ⟨⟨p, ha⟩, hb⟩)
        | true =>
          rw [f64PartialCmp_of (not_nan_of_value ha) (not_nan_of_inf hb)] at h
          have h := Int.compare_eq_lt.1 (Option.some.inj h)
          rw [units_inf hb] at h
          exact absurd h (Int.not_lt.2 (Int.le_of_lt (units_value ha).1))
      · unfold f64PartialCmp at h
        rw [hb, Bool.or_true] at h; cases h
    · rcases kinds b with ⟨q, hb⟩ | ⟨t, hb⟩ | hb
      · cases s with
        | true => exact .inr (.inl ⟨ha, .inl ⟨q, hb⟩⟩)
        | false =>
          rw [f64PartialCmp_of (not_nan_of_inf ha) (not_nan_of_value hb)] at h
          have h := Int.compare_eq_lt.1 (Option.some.inj h)
          rw [units_inf ha] at h
          exact absurd h (Int.not_lt.2 (Int.le_of_lt (units_value hb).2))
      · rw [f64PartialCmp_of (not_nan_of_inf ha) (not_nan_of_inf hb)] at h
        have h := Int.compare_eq_lt.1 (Option.some.inj h)
        rw [units_inf ha, units_inf hb] at h
        revert h hm
        generalize 2 ^ 52 * 2 ^ 2046 = m
        intro hm h
        cases s <;> cases t
        · simp at h
        · simp at h; omega
        · exact .inr (.inl ⟨ha, .inr hb⟩)
        · simp at h
      · unfold f64PartialCmp at h
        rw [hb, Bool.or_true] at h; cases h
    · unfold f64PartialCmp at h
      rw [ha] at h; cases h

theorem noOrder_iff (a b : UInt64) : IsNan a ∨ IsNan b ↔ f64PartialCmp a b = none := by
  rw [isNan_iff, isNan_iff]
  unfold f64PartialCmp
  cases f64IsNan a <;> cases f64IsNan b <;> simp

/-! ## Laws of partial orders -/

/-- The laws for `partial_cmp` alone. -/
structure CmpLaws {α : Type} (cmp : α → α → Option Ordering) : Prop where
  swap : ∀ a b, cmp b a = (cmp a b).map Ordering.swap
  trans : ∀ a b c, cmp a b = some .lt → cmp b c = some .lt → cmp a c = some .lt
  congr : ∀ a b c, cmp a b = some .eq → cmp a c = cmp b c

theorem CmpLaws.symm {α : Type} {cmp : α → α → Option Ordering} (h : CmpLaws cmp) {a b : α}
    (e : cmp a b = some .eq) : cmp b a = some .eq := by
  rw [h.swap, e]; rfl

theorem CmpLaws.congr_right {α : Type} {cmp : α → α → Option Ordering} (h : CmpLaws cmp) (a b c : α)
    (e : cmp b c = some .eq) : cmp a c = cmp a b := by
  rw [h.swap c a, h.swap b a, h.congr c b a (h.symm e)]

theorem cmpLaws_total {α : Type} {cmp : α → α → Ordering} (h : TotalOrder cmp) :
    CmpLaws fun a b => some (cmp a b) where
  swap a b := by rw [h.swap]; rfl
  trans a b c h1 h2 := by rw [h.trans a b c (Option.some.inj h1) (Option.some.inj h2)]
  congr a b c e := by rw [(h.eq a b).1 (Option.some.inj e)]

theorem thenCmp_lt {x y : Option Ordering} :
    thenCmp x y = some .lt ↔ x = some .lt ∨ x = some .eq ∧ y = some .lt := by
  rcases x with _ | _ | _ | _ <;> simp [thenCmp]

theorem thenCmp_eq {x y : Option Ordering} : thenCmp x y = some .eq ↔ x = some .eq ∧ y = some .eq := by
  rcases x with _ | _ | _ | _ <;> simp [thenCmp]

theorem thenCmp_swap (x y : Option Ordering) :
    thenCmp (x.map Ordering.swap) (y.map Ordering.swap) = (thenCmp x y).map Ordering.swap := by
  rcases x with _ | _ | _ | _ <;> rfl

theorem cmpLaws_u64 : CmpLaws u64PartialCmp where
  swap a b := by simp [u64PartialCmp, Nat.compare_swap]
  trans a b c h1 h2 := by
    simp only [u64PartialCmp, Option.some.injEq, Nat.compare_eq_lt] at *
    omega
  congr a b c e := by
    simp only [u64PartialCmp, Option.some.injEq, Nat.compare_eq_eq] at *
    rw [e]

theorem cmpLaws_f64 : CmpLaws f64PartialCmp where
  swap a b := by
    unfold f64PartialCmp
    rw [Bool.or_comm]
    split
    · rfl
    · simp [Int.compare_swap]
  trans a b c h1 h2 := by
    unfold f64PartialCmp at *
    split at h1
    · cases h1
    · split at h2
      · cases h2
      · rename_i g1 g2
        simp only [Bool.not_eq_true, Bool.or_eq_false_iff] at g1 g2
        rw [g1.1, g2.2]
        have h1 := Int.compare_eq_lt.1 (Option.some.inj h1)
        have h2 := Int.compare_eq_lt.1 (Option.some.inj h2)
        exact congrArg some (Int.compare_eq_lt.2 (Int.lt_trans h1 h2))
  congr a b c e := by
    unfold f64PartialCmp at *
    split at e
    · cases e
    · rename_i g
      simp only [Bool.not_eq_true, Bool.or_eq_false_iff] at g
      simp only [Option.some.injEq, Int.compare_eq_eq] at e
      rw [g.1, g.2, e]

theorem cmpLaws_list {α : Type} {cmp : α → α → Option Ordering} (h : CmpLaws cmp) :
    CmpLaws (partialCmpList cmp) where
  swap := by
    intro as
    induction as with
    | nil => intro bs; cases bs <;> rfl
    | cons a as ih =>
      intro bs
      cases bs with
      | nil => rfl
      | cons b bs =>
        show thenCmp (cmp b a) _ = (thenCmp (cmp a b) _).map _
        rw [← thenCmp_swap, ← ih bs, h.swap a b]
  trans := by
    intro as
    induction as with
    | nil =>
      intro bs cs h1 h2
      cases bs with
      | nil => cases h1
      | cons b bs =>
        cases cs with
        | nil => cases h2
        | cons c cs => rfl
    | cons a as ih =>
      intro bs cs h1 h2
      cases bs with
      | nil => cases h1
      | cons b bs =>
        cases cs with
        | nil => cases h2
        | cons c cs =>
          have h1 := thenCmp_lt.1 h1
          have h2 := thenCmp_lt.1 h2
          refine thenCmp_lt.2 ?_
          rcases h1 with h1 | ⟨h1, g1⟩
          · rcases h2 with h2 | ⟨h2, g2⟩
            · exact .inl (h.trans _ _ _ h1 h2)
            · exact .inl (by rw [h.congr_right a b c h2]; exact h1)
          · rcases h2 with h2 | ⟨h2, g2⟩
            · exact .inl (by rw [h.congr a b c h1]; exact h2)
            · exact .inr ⟨by rw [h.congr a b c h1]; exact h2, ih _ _ g1 g2⟩
  congr := by
    intro as
    induction as with
    | nil =>
      intro bs cs e
      cases bs with
      | nil => rfl
      | cons b bs => cases e
    | cons a as ih =>
      intro bs cs e
      cases bs with
      | nil => cases e
      | cons b bs =>
        obtain ⟨e1, e2⟩ := thenCmp_eq.1 e
        cases cs with
        | nil => rfl
        | cons c cs =>
          show thenCmp (cmp a c) _ = thenCmp (cmp b c) _
          rw [h.congr a b c e1, ih bs cs e2]

theorem cmpStr_total : TotalOrder cmpStr :=
  total_of_ranks (ranks_of (fun a b => cmpNats_textKey_end a b) (fun a b => cmpStr_eq a b))

section
variable [Http] [F64Bits]

theorem cmpLaws_estimate : CmpLaws FeeEstimate.partialCmp where
  swap a b := by
    unfold FeeEstimate.partialCmp
    rw [← thenCmp_swap, ← cmpLaws_u64.swap, ← cmpLaws_f64.swap]
  trans a b c h1 h2 := by
    unfold FeeEstimate.partialCmp at *
    rw [thenCmp_lt] at *
    rcases h1 with h1 | ⟨h1, g1⟩
    · rcases h2 with h2 | ⟨h2, g2⟩
      · exact .inl (cmpLaws_u64.trans _ _ _ h1 h2)
      · exact .inl (by rw [cmpLaws_u64.congr_right _ _ _ h2]; exact h1)
    · rcases h2 with h2 | ⟨h2, g2⟩
      · exact .inl (by rw [cmpLaws_u64.congr _ _ _ h1]; exact h2)
      · exact .inr ⟨by rw [cmpLaws_u64.congr _ _ _ h1]; exact h2, cmpLaws_f64.trans _ _ _ g1 g2⟩
  congr a b c e := by
    unfold FeeEstimate.partialCmp at *
    obtain ⟨e1, e2⟩ := thenCmp_eq.1 e
    rw [cmpLaws_u64.congr _ _ _ e1, cmpLaws_f64.congr _ _ _ e2]

theorem cmpLaws_response : CmpLaws EstimateFeeResponse.partialCmp where
  swap a b := by
    cases a with
    | ok a => cases b with
      | ok b => exact (cmpLaws_list cmpLaws_estimate).swap _ _
      | err b => rfl
    | err a => cases b with
      | ok b => rfl
      | err b => exact (cmpLaws_total cmpStr_total).swap _ _
  trans a b c h1 h2 := by
    cases a with
    | ok a => cases b with
      | ok b => cases c with
        | ok c => exact (cmpLaws_list cmpLaws_estimate).trans _ _ _ h1 h2
        | err c => rfl
      | err b => cases c with
        | ok c => cases h2
        | err c => rfl
    | err a => cases b with
      | ok b => cases h1
      | err b => cases c with
        | ok c => cases h2
        | err c => exact (cmpLaws_total cmpStr_total).trans _ _ _ h1 h2
  congr a b c e := by
    cases a with
    | ok a => cases b with
      | ok b => cases c with
        | ok c => exact (cmpLaws_list cmpLaws_estimate).congr _ _ _ e
        | err c => rfl
      | err b => cases e
    | err a => cases b with
      | ok b => cases e
      | err b => cases c with
        | ok c => rfl
        | err c => exact (cmpLaws_total cmpStr_total).congr _ _ _ e

omit [Http] [F64Bits] in
theorem f64Eq_iff (a b : UInt64) : f64Eq a b = true ↔ f64PartialCmp a b = some .eq := by
  unfold f64Eq f64PartialCmp
  cases f64IsNan a <;> cases f64IsNan b <;> simp

theorem estimate_eq_iff (a b : FeeEstimate) : a.eq b = true ↔ a.partialCmp b = some .eq := by
  unfold FeeEstimate.eq FeeEstimate.partialCmp
  rw [Bool.and_eq_true, f64Eq_iff, thenCmp_eq, beq_iff_eq, u64PartialCmp, Option.some.injEq, Nat.compare_eq_eq,
    UInt64.toNat_inj]

omit [Http] [F64Bits] in
theorem eqList_iff {α : Type} {eq : α → α → Bool} {cmp : α → α → Option Ordering}
    (h : ∀ a b, eq a b = true ↔ cmp a b = some .eq) :
    ∀ as bs : List α, eqList eq as bs = true ↔ partialCmpList cmp as bs = some .eq
  | [], [] => by simp [eqList, partialCmpList]
  | [], _ :: _ => by simp [eqList, partialCmpList]
  | _ :: _, [] => by simp [eqList, partialCmpList]
  | a :: as, b :: bs => by
    rw [eqList, Bool.and_eq_true, h a b, eqList_iff h as bs, partialCmpList, thenCmp_eq]

theorem sameEstimate_iff (x y : FeeEstimate) : SameEstimate x y ↔ x.partialCmp y = some .eq := by
  unfold SameEstimate FeeEstimate.partialCmp
  rw [thenCmp_eq, sameRate_iff, u64PartialCmp, Option.some.injEq, Nat.compare_eq_eq, UInt64.toNat_inj]

theorem lowerEstimate_iff (x y : FeeEstimate) : LowerEstimate x y ↔ x.partialCmp y = some .lt := by
  unfold LowerEstimate FeeEstimate.partialCmp
  rw [thenCmp_lt, lowerRate_iff, u64PartialCmp, Option.some.injEq, Option.some.injEq, Nat.compare_eq_eq,
    Nat.compare_eq_lt, UInt64.toNat_inj]

theorem noOrderEstimate_iff (x y : FeeEstimate) : NoOrder x y ↔ x.partialCmp y = none := by
  unfold NoOrder FeeEstimate.partialCmp
  rw [noOrder_iff, ← UInt64.toNat_inj, ← Nat.compare_eq_eq, u64PartialCmp]
  cases compare x.fee.toNat y.fee.toNat <;> simp [thenCmp]

/-- The answer for two lists of the same beginning is the answer for the rest. -/
theorem partialCmpList_append {p p' : List FeeEstimate} (h : List.Forall₂ SameEstimate p p')
    (xs ys : List FeeEstimate) :
    partialCmpList FeeEstimate.partialCmp (p ++ xs) (p' ++ ys) =
      partialCmpList FeeEstimate.partialCmp xs ys := by
  induction h with
  | nil => rfl
  | cons hx _ ih =>
    simp only [List.cons_append, partialCmpList]
    rw [(sameEstimate_iff _ _).1 hx, ih]
    rfl

/-- Two lists are the same, one begins like the other, or they differ first at some place. -/
theorem lists_cases : ∀ f g : List FeeEstimate, List.Forall₂ SameEstimate f g ∨ Begins f g ∨
    (∃ p x xs, f = p ++ x :: xs ∧ List.Forall₂ SameEstimate p g) ∨
    FirstDiffer (fun x y => ¬ SameEstimate x y) f g
  | [], [] => .inl .nil
  | [], y :: ys => .inr (.inl ⟨[], y, ys, rfl, .nil⟩)
  | x :: xs, [] => .inr (.inr (.inl ⟨[], x, xs, rfl, .nil⟩))
  | x :: xs, y :: ys => by
    by_cases h : SameEstimate x y
    · rcases lists_cases xs ys with e | ⟨p, z, zs, rfl, e⟩ | ⟨p, z, zs, rfl, e⟩ |
        ⟨p, a, as, p', b, bs, rfl, rfl, e, hd⟩
      · exact .inl (.cons h e)
      · exact .inr (.inl ⟨y :: p, z, zs, rfl, .cons h e⟩)
      · exact .inr (.inr (.inl ⟨x :: p, z, zs, rfl, .cons h e⟩))
      · exact .inr (.inr (.inr ⟨x :: p, a, as, y :: p', b, bs, rfl, rfl, .cons h e, hd⟩))
    · exact .inr (.inr (.inr ⟨[], x, xs, [], y, ys, rfl, rfl, .nil, h⟩))

theorem cmp_begins {f g : List FeeEstimate} (h : Begins f g) :
    partialCmpList FeeEstimate.partialCmp f g = some .lt := by
  obtain ⟨p, y, ys, rfl, h⟩ := h
  have := partialCmpList_append h [] (y :: ys)
  rw [List.append_nil] at this
  rw [this]; rfl

theorem cmp_same {f g : List FeeEstimate} (h : List.Forall₂ SameEstimate f g) :
    partialCmpList FeeEstimate.partialCmp f g = some .eq := by
  have := partialCmpList_append h [] []
  rw [List.append_nil, List.append_nil] at this
  rw [this]; rfl

theorem cmp_longer {p g : List FeeEstimate} {x : FeeEstimate} {xs : List FeeEstimate}
    (h : List.Forall₂ SameEstimate p g) :
    partialCmpList FeeEstimate.partialCmp (p ++ x :: xs) g = some .gt := by
  have := partialCmpList_append h (x :: xs) []
  rw [List.append_nil] at this
  rw [this]; rfl

theorem cmp_differ {p p' : List FeeEstimate} {x y : FeeEstimate} {xs ys : List FeeEstimate}
    (h : List.Forall₂ SameEstimate p p') (hd : ¬ SameEstimate x y) :
    partialCmpList FeeEstimate.partialCmp (p ++ x :: xs) (p' ++ y :: ys) = x.partialCmp y := by
  rw [partialCmpList_append h, partialCmpList]
  rw [sameEstimate_iff] at hd
  cases he : x.partialCmp y with
  | none => rfl
  | some o =>
    cases o with
    | lt => rfl
    | eq => exact absurd he hd
    | gt => rfl

theorem response_eq_iff (a b : EstimateFeeResponse) : a.eq b = true ↔ a.partialCmp b = some .eq := by
  cases a with
  | ok a => cases b with
    | ok b => exact eqList_iff estimate_eq_iff _ _
    | err b => simp [EstimateFeeResponse.eq, EstimateFeeResponse.partialCmp]
  | err a => cases b with
    | ok b => simp [EstimateFeeResponse.eq, EstimateFeeResponse.partialCmp]
    | err b =>
      simp only [EstimateFeeResponse.eq, EstimateFeeResponse.partialCmp, beq_iff_eq, Option.some.injEq]
      exact (cmpStr_total.eq a b).symm

end

end Stacks
