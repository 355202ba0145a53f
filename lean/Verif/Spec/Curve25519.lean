import Verif.Spec.X25519
import Mathlib.AlgebraicGeometry.EllipticCurve.Affine.Point
/-
Curve25519, y² = x³ + 486662 x² + x over the field with 2^255 - 19 elements (RFC 7748 section 4.1), as Mathlib's group of
points of a Weierstrass curve. Nothing here refers to the model of the code.
-/
namespace ATLS.Spec.Curve25519
open WeierstrassCurve

/-- The curve. -/
def curve : Affine (ZMod X25519.p) := ⟨0, 486662, 0, 1, 0⟩

/-- Its group of points, with Mathlib's group law. -/
abbrev Group := curve.Point

/-- The u coordinate of a point, 0 for the point at infinity. -/
def u : Group → ZMod X25519.p
  | .zero => 0
  | .some x _ _ => x

/-- The second coordinate of the base point. -/
def gy : ℕ := 0x20ae19a1b8a086b4e01edd2c7748d14c923d4d7e6d7c61b229e9c5a27eced3d9

theorem equation_iff (x y : ZMod X25519.p) : curve.Equation x y ↔ y ^ 2 = x ^ 3 + 486662 * x ^ 2 + x := by
  rw [Affine.equation_iff]
  simp only [curve]
  constructor <;> intro h <;> linear_combination h

theorem base_equation : curve.Equation 9 (gy : ZMod X25519.p) := by
  rw [equation_iff]
  have h : ((gy ^ 2 : ℕ) : ZMod X25519.p) = ((9 ^ 3 + 486662 * 9 ^ 2 + 9 : ℕ) : ZMod X25519.p) := by
    rw [ZMod.natCast_eq_natCast_iff']
    decide +kernel
  push_cast at h
  linear_combination h

theorem base_nonsingular : curve.Nonsingular 9 (gy : ZMod X25519.p) := by
  rw [Affine.nonsingular_iff]
  refine ⟨base_equation, Or.inr ?_⟩
  simp only [curve]
  intro h
  have h2 : ((2 * gy : ℕ) : ZMod X25519.p) = ((0 : ℕ) : ZMod X25519.p) := by push_cast; linear_combination h
  rw [ZMod.natCast_eq_natCast_iff'] at h2
  exact absurd h2 (by decide +kernel)

/-- The base point: u = 9. -/
def G : Group := .some _ _ base_nonsingular

end ATLS.Spec.Curve25519
