import Verif.Concrete.EcdsaLawful
import Mathlib.GroupTheory.Perm.Cycle.Type
import Mathlib.SetTheory.Cardinal.NatCard

/-! # The curve secp256k1 has exactly `n` points

There are at most `2 p + 1 < 3 n` of them, and `n`, the order of the base point, divides their number,
so there are `n` or `2 n`; in the second case one of them would have order 2, hence ordinate zero, and
`-7` would be a cube modulo `p`. -/

namespace Stacks.Concrete.Ecdsa
open WeierstrassCurve

/-- Abscissa and parity of the ordinate. -/
def tag : Pt → Option (F × Bool)
  | .zero => none
  | .some x y _ => some (x, y.val % 2 == 1)

theorem tag_injective : Function.Injective tag := by
  intro P Q h
  rcases P with _ | ⟨x, y, hP⟩ <;> rcases Q with _ | ⟨x', y', hQ⟩
  · rfl
  · cases h
  · cases h
  · simp only [tag, Option.some.injEq, Prod.mk.injEq] at h
    obtain ⟨rfl, hpar⟩ := h
    have e := (equation_iff' _ _).1 hP.1
    have e' := (equation_iff' _ _).1 hQ.1
    have hmul : (y - y') * (y + y') = 0 := by linear_combination e - e'
    have : y = y' := by
      rcases mul_eq_zero.1 hmul with g | g
      · exact sub_eq_zero.1 g
      · by_cases hy0 : y' = 0
        · rw [hy0, add_zero] at g; rw [g, hy0]
        · exfalso
          have hv : y'.val ≠ 0 := by rwa [Ne, ZMod.val_eq_zero]
          have h1 := neg_cast (y := y'.val) (by omega) (ZMod.val_lt _) (ZMod.val_lt y)
            (by rw [ZMod.natCast_zmod_val, ZMod.natCast_zmod_val]; exact eq_neg_of_add_eq_zero_left g)
          have ho := odd_sub (ZMod.val_lt y')
          rw [← h1] at ho
          rcases Nat.mod_two_eq_zero_or_one y.val with a | a <;> rcases Nat.mod_two_eq_zero_or_one y'.val with b | b <;>
            simp [a, b] at ho hpar
    subst this
    rfl

instance : Finite Pt := Finite.of_injective tag tag_injective

theorem card_le : Nat.card Pt ≤ 2 * p + 1 := by
  refine (Nat.card_le_card_of_injective tag tag_injective).trans ?_
  rw [Finite.card_option, Nat.card_prod, Nat.card_zmod, Nat.card_eq_fintype_card (α := Bool), Fintype.card_bool,
    Nat.mul_comm]

/-- `-7` is no cube. -/
theorem no_cube (x : F) : x ^ 3 + 7 ≠ 0 := by
  intro h
  have hx : x ≠ 0 := by
    rintro rfl
    have h' : ((7 : Nat) : F) = 0 := by push_cast; linear_combination h
    rw [ZMod.natCast_eq_zero_iff] at h'
    exact absurd h' (by decide +kernel)
  have h1 : x ^ 3 = ((p - 7 : Nat) : F) := by
    rw [cast_sub' (by decide)]; push_cast; linear_combination h
  have h2 : (x ^ 3) ^ ((p - 1) / 3) = 1 := by
    rw [← pow_mul, show 3 * ((p - 1) / 3) = p - 1 by decide +kernel]
    exact ZMod.pow_card_sub_one_eq_one hx
  rw [h1, ← powMod_cast (by decide) (by decide +kernel)] at h2
  have h3 : powMod p (p - 7) ((p - 1) / 3) = 1 := cast_inj (powMod_lt (by decide) _ _) (by decide) (by rw [h2]; simp)
  exact absurd h3 (by decide +kernel)

theorem card_eq : Nat.card Pt = n := by
  have hdvd : n ∣ Nat.card Pt := addOrderOf_G ▸ addOrderOf_dvd_natCard G
  obtain ⟨c, hc⟩ := hdvd
  have hpos : 0 < Nat.card Pt := Nat.card_pos
  have hle := card_le
  have h3 : 2 * p + 1 < 3 * n := by decide +kernel
  have hc0 : c ≠ 0 := by rintro rfl; omega
  have hc3 : c < 3 := by
    by_contra h
    have : n * 3 ≤ n * c := Nat.mul_le_mul_left n (by omega)
    omega
  have hc2 : c ≠ 2 := by
    rintro rfl
    have : Fact (Nat.Prime 2) := ⟨Nat.prime_two⟩
    obtain ⟨Q, hQ⟩ := exists_prime_addOrderOf_dvd_card' (G := Pt) 2 (hc ▸ Dvd.intro_left n rfl)
    have h0 : Q ≠ 0 := by rintro rfl; rw [addOrderOf_zero] at hQ; cases hQ
    have h2 : Q + Q = 0 := by rw [← two_nsmul, ← hQ]; exact addOrderOf_nsmul_eq_zero Q
    have h4 : Q = -Q := eq_neg_of_add_eq_zero_left h2
    rcases Q with _ | ⟨x, y, h⟩
    · exact h0 rfl
    · rw [Affine.Point.neg_some] at h4
      simp only [Affine.Point.some.injEq, true_and] at h4
      have hy : y = 0 := by
        have : y = -y := by simpa [Affine.negY] using h4
        have h5 : (2 : F) * y = 0 := by linear_combination this
        exact (mul_eq_zero.1 h5).resolve_left two_ne
      have e := (equation_iff' _ _).1 h.1
      rw [hy] at e
      exact no_cube x (by linear_combination -e)
  have : c = 1 := by omega
  rw [hc, this, Nat.mul_one]

/-- Every point is a multiple of the base point. -/
theorem exists_smul (Q : Pt) : ∃ e, e < n ∧ Q = e • G := by
  have htop : AddSubgroup.zmultiples G = ⊤ := by
    apply AddSubgroup.eq_top_of_card_eq
    rw [Nat.card_zmultiples, addOrderOf_G, card_eq]
  have hQ : Q ∈ AddSubgroup.zmultiples G := by rw [htop]; exact AddSubgroup.mem_top Q
  obtain ⟨z, hz⟩ := AddSubgroup.mem_zmultiples_iff.1 hQ
  have hn : (0 : ℤ) < (n : ℤ) := by exact_mod_cast (by decide : 0 < n)
  refine ⟨(z % n).toNat, ?_, ?_⟩
  · have := Int.emod_lt_of_pos z hn
    have := Int.emod_nonneg z hn.ne'
    omega
  · rw [← hz, ← natCast_zsmul, Int.toNat_of_nonneg (Int.emod_nonneg z hn.ne')]
    have := mod_addOrderOf_zsmul G z
    rw [addOrderOf_G] at this
    exact this.symm

/-- Every public key belongs to exactly one secret key. -/
theorem exists_secret (q : PK) : ∃ d : SK, pub d = q := by
  obtain ⟨⟨x, y⟩, hq⟩ := q
  have hx : x < p := hq.1
  have hy : y < p := hq.2.1
  have hN := nonsingular_of ((valid_iff hx hy).1 hq)
  obtain ⟨e, he, hE⟩ := exists_smul (.some _ _ hN)
  have h0 : 0 < e := by
    rcases Nat.eq_zero_or_pos e with rfl | h
    · rw [zero_nsmul] at hE; exact absurd hE (Affine.Point.some_ne_zero hN)
    · exact h
  refine ⟨⟨e, h0, he⟩, ?_⟩
  have h1 := pub_rep ⟨e, h0, he⟩
  have h2 := repA_mk hx hy hN
  rw [hE] at h2
  have := repA_unique h1 h2
  exact Subtype.ext (Option.some.inj this)

end Stacks.Concrete.Ecdsa
