import Mathlib.AlgebraicGeometry.EllipticCurve.Affine.Point
import Mathlib.Algebra.Field.ZMod

/-! # What an ECDSA signature over secp256k1 is

Stated with Mathlib's group of points of an elliptic curve and with the constants of SEC 2. -/

namespace Stacks.Spec.Ecdsa
open WeierstrassCurve

/-- The field prime: 2²⁵⁶ − 2³² − 977. -/
def fieldPrime : Nat := 2 ^ 256 - 2 ^ 32 - 977
/-- The order of the base point. -/
def order : Nat := 115792089237316195423570985008687907852837564279074904382605163141518161494337
/-- The coordinates of the base point. -/
def baseX : Nat := 55066263022277343669578718895168534326250603453777594175500187360389116729240
def baseY : Nat := 32670510020758816978083085130507043184471273380659243275938904335757337482424

/-- The curve `y² = x³ + 7`. -/
abbrev curve : WeierstrassCurve.Affine (ZMod fieldPrime) := ⟨0, 0, 0, 0, 7⟩

/-- The signature `(r, s)` of the number `m` is valid for the public key `Q`: both parts are between
1 and the order, and the point `(m / s) • G + (r / s) • Q` has an abscissa congruent to `r`. The
multipliers are any natural numbers `u`, `v` with `u s ≡ m` and `v s ≡ r`. -/
def Verifies [Fact fieldPrime.Prime] (G Q : curve.Point) (m r s : Nat) : Prop :=
  0 < r ∧ r < order ∧ 0 < s ∧ s < order ∧
  ∀ u v : Nat, u * s ≡ m [MOD order] → v * s ≡ r [MOD order] →
    ∃ (x y : ZMod fieldPrime) (h : curve.Nonsingular x y), u • G + v • Q = Affine.Point.some x y h ∧ x.val ≡ r [MOD order]

end Stacks.Spec.Ecdsa
