import Verif.Proof.Primes
import Mathlib.AlgebraicGeometry.EllipticCurve.Affine.Point
import Mathlib.Algebra.Field.ZMod
/-
The elliptic curve P-256 (FIPS 186-4 D.1.2.3, SEC 2 secp256r1) as Mathlib's group of points of a Weierstrass curve
over the field with p elements. Nothing here refers to the model of the code.
-/
namespace ATLS.Spec.P256
open WeierstrassCurve

/-- The order of the field, 2^256 - 2^224 + 2^192 + 2^96 - 1. -/
def p : ℕ := 0xffffffff00000001000000000000000000000000ffffffffffffffffffffffff

/-- The order of the base point. -/
def n : ℕ := 0xffffffff00000000ffffffffffffffffbce6faada7179e84f3b9cac2fc632551

/-- The curve constant b. -/
def b : ℕ := 0x5ac635d8aa3a93e7b3ebbd55769886bc651d06b0cc53b0f63bce3c3e27d2604b

/-- The base point. -/
def gx : ℕ := 0x6b17d1f2e12c4247f8bce6e563a440f277037d812deb33a0f4a13945d898c296
@[inherit_doc gx] def gy : ℕ := 0x4fe342e2fe1a7f9b8ee7eb4a7c0f9e162bce33576b315ececbb6406837bf51f5

instance : Fact p.Prime := ⟨Primes.p256⟩
instance : Fact n.Prime := ⟨Primes.n256⟩

/-- The curve y² = x³ - 3x + b over the field with p elements. -/
def curve : Affine (ZMod p) := ⟨0, 0, 0, -3, b⟩

/-- The group of points, with Mathlib's group law. -/
abbrev Group := curve.Point

/-- The two coordinates of a point as integers in [0, p), and (0, 0) for the point at infinity (not a point of the
curve). -/
def coords : Group → Int × Int
  | .zero => (0, 0)
  | .some x y _ => (x.val, y.val)

theorem equation_iff (x y : ZMod p) : curve.Equation x y ↔ y ^ 2 = x ^ 3 - 3 * x + b := by
  rw [Affine.equation_iff]
  simp only [curve]
  constructor <;> intro h <;> linear_combination h

theorem base_equation : curve.Equation (gx : ZMod p) gy := by
  rw [equation_iff]
  have h : ((gy ^ 2 + 3 * gx : ℕ) : ZMod p) = ((gx ^ 3 + b : ℕ) : ZMod p) := by
    rw [ZMod.natCast_eq_natCast_iff']
    decide +kernel
  push_cast at h
  linear_combination h

theorem base_nonsingular : curve.Nonsingular (gx : ZMod p) gy := by
  rw [Affine.nonsingular_iff]
  refine ⟨base_equation, Or.inr ?_⟩
  simp only [curve]
  intro h
  have h2 : ((2 * gy : ℕ) : ZMod p) = ((0 : ℕ) : ZMod p) := by push_cast; linear_combination h
  rw [ZMod.natCast_eq_natCast_iff'] at h2
  exact absurd h2 (by decide +kernel)

/-- The base point G. -/
def G : Group := .some _ _ base_nonsingular

end ATLS.Spec.P256
