import Verif.Spec.P256
import Verif.Proof.Weierstrass
import Mathlib.FieldTheory.Finite.Basic
import Mathlib.GroupTheory.Perm.Cycle.Type
import Mathlib.GroupTheory.OrderOfElement
/-
P-256 has no point of order two: x³ - 3x + b has no root modulo p. A root t would satisfy t^p = t; t^p is computed
modulo the cubic by square and multiply inside the kernel, and a Bézout coefficient shows that t^p - t and the cubic have
no common root.
-/
namespace ATLS.P256Proof
open WeierstrassCurve ATLS.Spec.P256

/-- Product modulo x³ - 3x + b of two polynomials of degree at most two, coefficients modulo p. -/
def mulT (A B : ℕ × ℕ × ℕ) : ℕ × ℕ × ℕ :=
  let c3 := (A.2.1 * B.2.2 + A.2.2 * B.2.1) % p
  let c4 := A.2.2 * B.2.2 % p
  ((A.1 * B.1 + (p - b) * c3) % p, (A.1 * B.2.1 + A.2.1 * B.1 + (p - b) * c4 + 3 * c3) % p,
    (A.1 * B.2.2 + A.2.1 * B.2.1 + A.2.2 * B.1 + 3 * c4) % p)

/-- Value of a polynomial of degree at most two. -/
def evalT (t : ZMod p) (A : ℕ × ℕ × ℕ) : ZMod p := A.1 + A.2.1 * t + A.2.2 * t ^ 2

theorem evalT_mulT (t : ZMod p) (ht : t ^ 3 = 3 * t - b) (A B : ℕ × ℕ × ℕ) :
    evalT t (mulT A B) = evalT t A * evalT t B := by
  have hb : ((p - b : ℕ) : ZMod p) = -(b : ZMod p) := by
    rw [Nat.cast_sub (by decide +kernel)]
    simp
  simp only [evalT, mulT, ZMod.natCast_mod, Nat.cast_add, Nat.cast_mul, hb, Nat.cast_ofNat]
  have h4 : t ^ 4 = 3 * t ^ 2 - b * t := by linear_combination t * ht
  linear_combination (-(A.2.1 * B.2.2 + A.2.2 * B.2.1 : ZMod p)) * ht - (A.2.2 * B.2.2 : ZMod p) * h4

/-- Square and multiply modulo the cubic. -/
def powT : ℕ → ℕ × ℕ × ℕ → ℕ → ℕ × ℕ × ℕ → ℕ × ℕ × ℕ
  | 0, _, _, acc => acc
  | f + 1, B, e, acc => powT f (mulT B B) (e / 2) (if e % 2 = 1 then mulT acc B else acc)

theorem evalT_powT (t : ZMod p) (ht : t ^ 3 = 3 * t - b) : ∀ (f : ℕ) (B : ℕ × ℕ × ℕ) (e : ℕ) (acc : ℕ × ℕ × ℕ), e < 2 ^ f →
    evalT t (powT f B e acc) = evalT t acc * evalT t B ^ e := by
  intro f
  induction f with
  | zero =>
    intro B e acc h
    have : e = 0 := by simpa using h
    subst this
    simp [powT]
  | succ f ih =>
    intro B e acc h
    rw [powT, ih _ _ _ (by rw [pow_succ] at h; omega), evalT_mulT t ht, ← pow_two, ← pow_mul]
    by_cases h1 : e % 2 = 1
    · rw [if_pos h1, evalT_mulT t ht, mul_assoc, ← pow_succ', show 2 * (e / 2) + 1 = e by omega]
    · rw [if_neg h1, show 2 * (e / 2) = e by omega]

/-- x^p modulo the cubic. -/
def frob : ℕ × ℕ × ℕ :=
  (66434390973925144466073271287821796038003695194169110494110089305650096453661, 12402202686218762177567235911775779164004716598278868847786114277539554646092, 24678849118215552148312087830792888746041224110560601850711771001608500700145)

/-- The inverse of x^p - x modulo the cubic. -/
def bezout : ℕ × ℕ × ℕ :=
  (76626890310466861426869089647039036757962535851890885406097439786770458211455, 74462945259064871768191128030512052509059297803194871526163573358218695456204, 34768139465301476436978405170953382516735956999154666452188405812258086013549)

theorem frob_eq : powT 256 (0, 1, 0) p (1, 0, 0) = frob := by decide +kernel

theorem bezout_eq : mulT bezout (frob.1, frob.2.1 + (p - 1), frob.2.2) = (1, 0, 0) := by decide +kernel

theorem no_root (t : ZMod p) : t ^ 3 - 3 * t + b ≠ 0 := by
  intro h
  have ht : t ^ 3 = 3 * t - b := by linear_combination h
  have h1 := evalT_powT t ht 256 (0, 1, 0) p (1, 0, 0) (by decide +kernel)
  have h2 := evalT_mulT t ht bezout (frob.1, frob.2.1 + (p - 1), frob.2.2)
  rw [frob_eq] at h1
  rw [bezout_eq] at h2
  have hX : evalT t (0, 1, 0) = t := by simp [evalT]
  have hO : evalT t (1, 0, 0) = 1 := by simp [evalT]
  have hF : evalT t (frob.1, frob.2.1 + (p - 1), frob.2.2) = evalT t frob - t := by
    simp only [evalT, Nat.cast_add, Nat.cast_sub (show 1 ≤ p by decide +kernel), CharP.cast_eq_zero, Nat.cast_one]
    ring
  rw [hX, hO, ZMod.pow_card, one_mul] at h1
  rw [hF, hO, h1, sub_self, mul_zero] at h2
  exact one_ne_zero h2

theorem two_ne : (2 : ZMod p) ≠ 0 := by
  have : ((2 : ℕ) : ZMod p) ≠ ((0 : ℕ) : ZMod p) := by
    rw [Ne, ZMod.natCast_eq_natCast_iff']
    decide +kernel
  simpa using this

/-- The curve is as the Jacobian formulas of the code need it. -/
theorem short : WProof.Short curve where
  a₁ := rfl
  a₂ := rfl
  a₃ := rfl
  two := two_ne
  noTwo := by
    rintro x y h rfl
    rw [equation_iff] at h
    exact no_root x (by linear_combination -h)

end ATLS.P256Proof
