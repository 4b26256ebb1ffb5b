import Verif.Concrete.EcdsaArith
import Mathlib.AlgebraicGeometry.EllipticCurve.Affine.Point
import Mathlib.FieldTheory.Finite.Basic
import Mathlib.Tactic.FieldSimp
import Mathlib.Tactic.LinearCombination

/-! # The executable curve arithmetic computes Mathlib's group law

`Pt` is Mathlib's group of points of `y² = x³ + 7` over the integers modulo `p`. -/

namespace Stacks.Concrete.Ecdsa
open WeierstrassCurve

instance : Fact p.Prime := ⟨p_prime⟩
instance : Fact n.Prime := ⟨n_prime⟩

/-- The field. -/
abbrev F : Type := ZMod p

/-- The curve secp256k1. -/
abbrev W : WeierstrassCurve.Affine F := ⟨0, 0, 0, 0, 7⟩

/-- Its group of points. -/
abbrev Pt : Type := W.Point

theorem p_pos : 0 < p := by decide
theorem two_ne : (2 : F) ≠ 0 := by
  intro h
  have h' : ((2 : Nat) : F) = 0 := by exact_mod_cast h
  rw [ZMod.natCast_eq_zero_iff] at h'
  exact absurd h' (by decide +kernel)

theorem cast_inj {a b : Nat} (ha : a < p) (hb : b < p) (h : (a : F) = (b : F)) : a = b := by
  rw [ZMod.natCast_eq_natCast_iff] at h
  unfold Nat.ModEq at h
  rwa [Nat.mod_eq_of_lt ha, Nat.mod_eq_of_lt hb] at h

theorem cast_zero_iff {a : Nat} (ha : a < p) : (a : F) = 0 ↔ a = 0 := by
  constructor
  · intro h; exact cast_inj ha p_pos (by rw [h, Nat.cast_zero])
  · rintro rfl; exact Nat.cast_zero

theorem cast_sub' {a : Nat} (ha : a < p) : ((p - a : Nat) : F) = -(a : F) := by
  rw [Nat.cast_sub ha.le, ZMod.natCast_self, zero_sub]

theorem equation_iff' (x y : F) : W.Equation x y ↔ y ^ 2 = x ^ 3 + 7 := by
  rw [Affine.equation_iff]; simp

theorem nonsingular_of {x y : F} (h : y ^ 2 = x ^ 3 + 7) : W.Nonsingular x y := by
  rw [Affine.nonsingular_iff']
  refine ⟨(equation_iff' x y).2 h, ?_⟩
  by_cases hy : y = 0
  · left
    subst hy
    simp only [zero_mul, mul_zero, add_zero, zero_sub, ne_eq, neg_eq_zero]
    intro h3
    have h7 : x = 0 := by
      have : (3 : F) ≠ 0 := by
        intro h
        have h' : ((3 : Nat) : F) = 0 := by exact_mod_cast h
        rw [ZMod.natCast_eq_zero_iff] at h'
        exact absurd h' (by decide +kernel)
      simpa [this] using h3
    rw [h7] at h
    have h' : ((7 : Nat) : F) = 0 := by push_cast; linear_combination -h
    rw [ZMod.natCast_eq_zero_iff] at h'
    exact absurd h' (by decide +kernel)
  · right
    simpa using ⟨two_ne, hy⟩

/-- `J` are Jacobian coordinates of the point `Q`. -/
def Rep (J : Jac) : Pt → Prop
  | .zero => J.x < p ∧ J.y < p ∧ J.z = 0
  | .some x y _ => J.x < p ∧ J.y < p ∧ J.z < p ∧ (J.z : F) ≠ 0 ∧ (J.x : F) = x * (J.z : F) ^ 2 ∧ (J.y : F) = y * (J.z : F) ^ 3

theorem rep_zero : Rep ⟨1, 1, 0⟩ 0 := ⟨by decide, by decide, rfl⟩

theorem mod_p_lt (a : Nat) : a % p < p := Nat.mod_lt _ p_pos

theorem rep_dbl {J : Jac} {Q : Pt} (h : Rep J Q) : Rep (dbl J) (Q + Q) := by
  obtain ⟨X, Y, Z⟩ := J
  simp only [dbl, force_eq]
  rcases Q with _ | ⟨x, y, hQ⟩
  · obtain ⟨h1, h2, rfl⟩ := h
    rw [← Affine.Point.zero_def, add_zero]
    exact ⟨mod_p_lt _, mod_p_lt _, by simp⟩
  · obtain ⟨h1, h2, h3, hz, hx, hy⟩ := h
    dsimp only at h1 h2 h3 hz hx hy
    by_cases hy0 : y = 0
    · rw [Affine.Point.add_self_of_Y_eq (by simp [hy0])]
      refine ⟨mod_p_lt _, mod_p_lt _, ?_⟩
      rw [hy0, zero_mul, cast_zero_iff h2] at hy
      simp [hy]
    · have hne : y ≠ W.negY x y := by
        simp only [Affine.negY, zero_mul, sub_zero]
        intro h
        apply hy0
        have : (2 : F) * y = 0 := by linear_combination h
        simpa [two_ne] using this
      rw [Affine.Point.add_self_of_Y_ne hne]
      have hsl : W.slope x x y y = 3 * x ^ 2 / (2 * y) := by
        rw [Affine.slope_of_Y_ne rfl hne]
        simp only [Affine.negY, zero_mul, sub_zero, mul_zero, add_zero]
        congr 1; ring
      refine ⟨mod_p_lt _, mod_p_lt _, mod_p_lt _, ?_, ?_, ?_⟩
      · simp only [ZMod.natCast_mod, Nat.cast_mul, Nat.cast_ofNat]
        rw [hy]
        exact mul_ne_zero (mul_ne_zero two_ne (mul_ne_zero hy0 (pow_ne_zero _ hz))) hz
      · simp only [ZMod.natCast_mod, Nat.cast_mul, Nat.cast_add, Nat.cast_ofNat, cast_sub' (mod_p_lt _), hsl,
          Affine.addX, hx, hy]
        have h2 := two_ne
        field_simp
        ring
      · simp only [ZMod.natCast_mod, Nat.cast_mul, Nat.cast_add, Nat.cast_ofNat, cast_sub' (mod_p_lt _), hsl,
          Affine.addX, Affine.addY, Affine.negAddY, Affine.negY, hx, hy]
        have h2 := two_ne
        field_simp
        ring

theorem rep_add {J : Jac} {Q : Pt} (h : Rep J Q) {x₂ y₂ : Nat} (hx₂ : x₂ < p) (hy₂ : y₂ < p)
    (hP : W.Nonsingular (x₂ : F) (y₂ : F)) : Rep (addAff x₂ y₂ J) (Q + .some _ _ hP) := by
  obtain ⟨X, Y, Z⟩ := J
  have hone : ((1 : Nat) : F) = 1 := Nat.cast_one
  simp only [addAff, force_eq]
  rcases Q with _ | ⟨x, y, hQ⟩
  · obtain ⟨h1, h2, rfl⟩ := h
    rw [← Affine.Point.zero_def, zero_add, if_pos rfl]
    refine ⟨hx₂, hy₂, (by decide : 1 < p), ?_, ?_, ?_⟩ <;> simp
  · have h' := h
    obtain ⟨h1, h2, h3, hz, hx, hy⟩ := h
    dsimp only at h1 h2 h3 hz hx hy
    have hZ : Z ≠ 0 := fun h => hz (by rw [h, Nat.cast_zero])
    rw [if_neg hZ]
    have eqQ := (equation_iff' _ _).1 hQ.1
    have eqP := (equation_iff' _ _).1 hP.1
    have ch : ((x₂ * (Z * Z % p) + (p - X)) % p : Nat) = (0 : Nat) ↔ x = (x₂ : F) := by
      rw [← cast_zero_iff (mod_p_lt _)]
      simp only [ZMod.natCast_mod, Nat.cast_mul, Nat.cast_add, cast_sub' h1, hx]
      have e : (x₂ : F) * (Z * Z) + -(x * Z ^ 2) = (x₂ - x) * Z ^ 2 := by ring
      rw [e, mul_eq_zero, or_iff_left (pow_ne_zero _ hz), sub_eq_zero, eq_comm]
    have cr : ((y₂ * Z * (Z * Z % p) + (p - Y)) % p : Nat) = (0 : Nat) ↔ y = (y₂ : F) := by
      rw [← cast_zero_iff (mod_p_lt _)]
      simp only [ZMod.natCast_mod, Nat.cast_mul, Nat.cast_add, cast_sub' h2, hy]
      have e : (y₂ : F) * Z * (Z * Z) + -(y * Z ^ 3) = (y₂ - y) * Z ^ 3 := by ring
      rw [e, mul_eq_zero, or_iff_left (pow_ne_zero _ hz), sub_eq_zero, eq_comm]
    by_cases hxx : x = (x₂ : F)
    · rw [if_pos (ch.2 hxx)]
      by_cases hyy : y = (y₂ : F)
      · rw [if_pos (cr.2 hyy)]
        subst hxx hyy
        exact rep_dbl h'
      · rw [if_neg (fun h => hyy (cr.1 h))]
        have : y = W.negY (x₂ : F) (y₂ : F) := by
          simp only [Affine.negY, zero_mul, sub_zero]
          have e : (y - y₂) * (y + y₂) = 0 := by rw [← hxx] at eqP; linear_combination eqQ - eqP
          rcases mul_eq_zero.1 e with e | e
          · exact absurd (sub_eq_zero.1 e) hyy
          · linear_combination e
        rw [Affine.Point.add_of_Y_eq hxx this]
        exact rep_zero
    · rw [if_neg (fun h => hxx (ch.1 h)), Affine.Point.add_of_X_ne hxx]
      have hsl : W.slope x x₂ y y₂ = (y - y₂) / (x - x₂) := Affine.slope_of_X_ne hxx
      have hne : x - (x₂ : F) ≠ 0 := sub_ne_zero.2 hxx
      have ehh : ((x₂ : F) * (Z * Z) + -(x * Z ^ 2)) = -(x - x₂) * Z ^ 2 := by ring
      refine ⟨mod_p_lt _, mod_p_lt _, mod_p_lt _, ?_, ?_, ?_⟩
      · simp only [ZMod.natCast_mod, Nat.cast_mul, Nat.cast_add, cast_sub' h1, hx, ehh]
        exact mul_ne_zero hz (mul_ne_zero (neg_ne_zero.2 hne) (pow_ne_zero _ hz))
      · simp only [ZMod.natCast_mod, Nat.cast_mul, Nat.cast_add, Nat.cast_ofNat, cast_sub' (mod_p_lt _), cast_sub' h1,
          cast_sub' h2, hsl, Affine.addX, hx, hy]
        field_simp
        ring
      · simp only [ZMod.natCast_mod, Nat.cast_mul, Nat.cast_add, Nat.cast_ofNat, cast_sub' (mod_p_lt _), cast_sub' h1,
          cast_sub' h2, hsl, Affine.addX, Affine.addY, Affine.negAddY, Affine.negY, hx, hy]
        field_simp
        ring

/-- `o` are the affine coordinates of the point `Q`. -/
def RepA (o : Option (Nat × Nat)) : Pt → Prop
  | .zero => o = none
  | .some x y _ => ∃ a b, o = some (a, b) ∧ a < p ∧ b < p ∧ (a : F) = x ∧ (b : F) = y

theorem repA_unique {o o' : Option (Nat × Nat)} {Q : Pt} (h : RepA o Q) (h' : RepA o' Q) : o = o' := by
  rcases Q with _ | ⟨x, y, hQ⟩
  · exact h.trans h'.symm
  · obtain ⟨a, b, rfl, ha, hb, hax, hby⟩ := h
    obtain ⟨a', b', rfl, ha', hb', hax', hby'⟩ := h'
    rw [cast_inj ha ha' (hax.trans hax'.symm), cast_inj hb hb' (hby.trans hby'.symm)]

theorem repA_none {Q : Pt} : RepA none Q ↔ Q = 0 := by
  rcases Q with _ | ⟨x, y, hQ⟩
  · exact ⟨fun _ => rfl, fun _ => rfl⟩
  · constructor
    · rintro ⟨a, b, h, _⟩; cases h
    · intro h; exact absurd h (Affine.Point.some_ne_zero hQ)

theorem repA_some {a b : Nat} {Q : Pt} (h : RepA (some (a, b)) Q) :
    ∃ hQ : W.Nonsingular (a : F) (b : F), Q = .some _ _ hQ ∧ a < p ∧ b < p := by
  rcases Q with _ | ⟨x, y, hQ⟩
  · cases h
  · obtain ⟨a', b', h, ha, hb, rfl, rfl⟩ := h
    simp only [Option.some.injEq, Prod.mk.injEq] at h
    obtain ⟨rfl, rfl⟩ := h
    exact ⟨hQ, rfl, ha, hb⟩

theorem repA_mk {a b : Nat} (ha : a < p) (hb : b < p) (h : W.Nonsingular (a : F) (b : F)) :
    RepA (some (a, b)) (.some _ _ h) := ⟨a, b, rfl, ha, hb, rfl, rfl⟩

theorem inv_cast {m : Nat} [Fact m.Prime] (h2 : 2 < m) (hm : m ≤ 2 ^ 256) {a : Nat} (ha : (a : ZMod m) ≠ 0) :
    ((inv m a : Nat) : ZMod m) = (a : ZMod m)⁻¹ := by
  rw [inv, powMod_cast (by omega) (by omega)]
  apply eq_inv_of_mul_eq_one_left
  rw [← pow_succ, show m - 2 + 1 = m - 1 by omega]
  exact ZMod.pow_card_sub_one_eq_one ha

theorem rep_affine {J : Jac} {Q : Pt} (h : Rep J Q) : RepA J.affine Q := by
  obtain ⟨X, Y, Z⟩ := J
  simp only [Jac.affine, force_eq]
  rcases Q with _ | ⟨x, y, hQ⟩
  · obtain ⟨h1, h2, rfl⟩ := h
    rw [if_pos rfl]; rfl
  · obtain ⟨h1, h2, h3, hz, hx, hy⟩ := h
    dsimp only at h1 h2 h3 hz hx hy
    have hZ : Z ≠ 0 := fun h => hz (by rw [h, Nat.cast_zero])
    rw [if_neg hZ]
    have hi := inv_cast (m := p) (by decide) (by decide) hz
    refine ⟨_, _, rfl, mod_p_lt _, mod_p_lt _, ?_, ?_⟩
    · simp only [ZMod.natCast_mod, Nat.cast_mul, hi, hx]; field_simp
    · simp only [ZMod.natCast_mod, Nat.cast_mul, hi, hy]; field_simp

theorem rep_mk {a b : Nat} (ha : a < p) (hb : b < p) (h : W.Nonsingular (a : F) (b : F)) :
    Rep ⟨a, b, 1⟩ (.some _ _ h) := ⟨ha, hb, (by decide : 1 < p), by simp, by simp, by simp⟩

attribute [irreducible] Rep RepA

theorem rep_mulLoop {x y : Nat} (hx : x < p) (hy : y < p) (hP : W.Nonsingular (x : F) (y : F)) (bs : List Bool) :
    ∀ {J : Jac} {Q : Pt}, Rep J Q →
      Rep (mulLoop x y bs J) (2 ^ bs.length • Q + bitsVal bs • (Affine.Point.some _ _ hP : Pt)) := by
  induction bs with
  | nil => intro J Q h; simpa [mulLoop, bitsVal] using h
  | cons b bs ih =>
    intro J Q h
    cases b
    · have := ih (rep_dbl h)
      rw [mulLoop]
      convert this using 1
      simp only [bitsVal, Bool.false_eq_true, if_false, zero_add, List.length_cons]
      rw [← two_nsmul, ← mul_nsmul', pow_succ]
    · have := ih (rep_add (rep_dbl h) hx hy hP)
      rw [mulLoop]
      convert this using 1
      simp only [bitsVal, if_true, List.length_cons]
      rw [← two_nsmul, nsmul_add, ← mul_nsmul', pow_succ, add_nsmul, add_assoc]

theorem mulPt_rep {o : Option (Nat × Nat)} {Q : Pt} (h : RepA o Q) {k : Nat} (hk : k < 2 ^ 256) :
    RepA (mulPt k o) (k • Q) := by
  rcases o with _ | ⟨a, b⟩
  · rw [repA_none.1 h, nsmul_zero]; exact repA_none.2 rfl
  · obtain ⟨hQ, rfl, ha, hb⟩ := repA_some h
    have := rep_mulLoop ha hb hQ (bits 256 k) rep_zero
    rw [nsmul_zero, zero_add, bitsVal_bits, Nat.mod_eq_of_lt hk] at this
    have h2 := rep_affine this
    rw [mulPt]
    exact h2

theorem addPt_rep {o o' : Option (Nat × Nat)} {Q Q' : Pt} (h : RepA o Q) (h' : RepA o' Q') :
    RepA (addPt o o') (Q + Q') := by
  rcases o with _ | ⟨a, b⟩
  · rw [repA_none.1 h, zero_add]; exact h'
  rcases o' with _ | ⟨a', b'⟩
  · rw [repA_none.1 h', add_zero]; exact h
  obtain ⟨hQ, rfl, ha, hb⟩ := repA_some h
  obtain ⟨hQ', rfl, ha', hb'⟩ := repA_some h'
  exact rep_affine (rep_add (rep_mk ha hb hQ) ha' hb' hQ')

/-! ## The base point -/

theorem valid_iff {a b : Nat} (ha : a < p) (hb : b < p) : Valid (a, b) ↔ (b : F) ^ 2 = (a : F) ^ 3 + 7 := by
  have e : (b : F) ^ 2 = (a : F) ^ 3 + 7 ↔ b * b % p = (a * a * a + 7) % p := by
    have : ((b * b : Nat) : F) = ((a * a * a + 7 : Nat) : F) ↔ b * b % p = (a * a * a + 7) % p := by
      rw [ZMod.natCast_eq_natCast_iff]; rfl
    rw [← this]
    push_cast
    constructor <;> intro h <;> linear_combination h
  rw [e]
  exact ⟨fun h => h.2.2, fun h => ⟨ha, hb, h⟩⟩

theorem base_eq : ((gy : Nat) : F) ^ 2 = ((gx : Nat) : F) ^ 3 + 7 :=
  (valid_iff (by decide) (by decide)).1 (by decide +kernel)

/-- The base point. -/
noncomputable def G : Pt := .some _ _ (nonsingular_of base_eq)

theorem base_rep : RepA base G := repA_mk (by decide) (by decide) _

theorem G_ne : G ≠ 0 := Affine.Point.some_ne_zero _

/-- `n • G = 0`, computed. -/
theorem n_smul : n • G = 0 := by
  have h := mulPt_rep base_rep (k := n) (by decide)
  rw [show mulPt n base = none by decide +kernel] at h
  exact repA_none.1 h

theorem addOrderOf_G : addOrderOf G = n :=
  addOrderOf_eq_prime n_smul G_ne

theorem smul_eq {a b : Nat} (h : (a : ZMod n) = (b : ZMod n)) : a • G = b • G := by
  rw [ZMod.natCast_eq_natCast_iff, ← addOrderOf_G] at h
  exact nsmul_eq_nsmul_iff_modEq.2 h

theorem smul_ne_zero {k : Nat} (h0 : 0 < k) (h : k < n) : k • G ≠ 0 := by
  intro hk
  have := addOrderOf_dvd_of_nsmul_eq_zero hk
  rw [addOrderOf_G] at this
  exact absurd (Nat.le_of_dvd h0 this) (by omega)

end Stacks.Concrete.Ecdsa
