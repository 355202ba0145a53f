import Mathlib.AlgebraicGeometry.EllipticCurve.Affine.Point
/-
Jacobian addition and doubling, as the code computes them, over an abstract field.
-/
namespace ATLS.WProof
open WeierstrassCurve

variable {F : Type} [Field F] [DecidableEq F]

/-- A short Weierstrass curve y² = x³ + ax + b in odd characteristic without a point of order two. -/
structure Short (W : Affine F) : Prop where
  a₁ : W.a₁ = 0
  a₂ : W.a₂ = 0
  a₃ : W.a₃ = 0
  two : (2 : F) ≠ 0
  noTwo : ∀ x y, W.Equation x y → y ≠ 0

variable {W : Affine F}

theorem Short.negY (h : Short W) (x y : F) : W.negY x y = -y := by
  simp [Affine.negY, h.a₁, h.a₃]

theorem Short.equation (h : Short W) (x y : F) : W.Equation x y ↔ y ^ 2 = x ^ 3 + W.a₄ * x + W.a₆ := by
  rw [Affine.equation_iff]
  simp [h.a₁, h.a₂, h.a₃]

theorem Short.nonsingular (h : Short W) {x y : F} (he : W.Equation x y) : W.Nonsingular x y := by
  rw [Affine.nonsingular_iff]
  refine ⟨he, Or.inr ?_⟩
  have := h.noTwo x y he
  rw [h.a₁, h.a₃]
  intro hh
  apply this
  have : (2 : F) * y = 0 := by linear_combination hh
  exact (mul_eq_zero.mp this).resolve_left h.two

/-- Jacobian coordinates (X : Y : Z) represent a point. Infinity is represented by X = Y = 0. -/
def Rep (X Y Z : F) : W.Point → Prop
  | .zero => X = 0 ∧ Y = 0
  | .some x y _ => Z ≠ 0 ∧ X = x * Z ^ 2 ∧ Y = y * Z ^ 3

theorem rep_infinity (Z : F) : Rep 0 0 Z (0 : W.Point) := ⟨rfl, rfl⟩

theorem rep_zero_iff (h : Short W) {X Y Z : F} {P : W.Point} (hr : Rep X Y Z P) : Y = 0 ↔ P = 0 := by
  cases P with
  | zero => exact ⟨fun _ => rfl, fun _ => hr.2⟩
  | some x y hn =>
    constructor
    · intro hY
      have := h.noTwo x y hn.1
      rw [hr.2.2] at hY
      rcases mul_eq_zero.mp hY with h' | h'
      · exact absurd h' this
      · exact absurd (pow_eq_zero_iff (by norm_num) |>.mp h') hr.1
    · intro hP; cases hP

theorem rep_double (h : Short W) {X Y Z : F} {P : W.Point} (hr : Rep X Y Z P) (hY : Y ≠ 0) {S M NX NY NZ : F}
    (hS : S = 4 * X * Y ^ 2) (hM : M = 3 * X ^ 2 + W.a₄ * Z ^ 4) (hNX : NX = M ^ 2 - 2 * S)
    (hNY : NY = M * (S - NX) - 8 * Y ^ 4) (hNZ : NZ = 2 * Y * Z) : Rep NX NY NZ (P + P) := by
  cases P with
  | zero => exact absurd hr.2 hY
  | some x y hn =>
    obtain ⟨hZ, hX, hYe⟩ := hr
    have hy : y ≠ 0 := h.noTwo x y hn.1
    have h2 := h.two
    have hne : y ≠ W.negY x y := by
      rw [h.negY]
      intro hh
      apply hy
      have : (2 : F) * y = 0 := by linear_combination hh
      exact (mul_eq_zero.mp this).resolve_left h2
    rw [Affine.Point.add_self_of_Y_ne hne]
    have hsl : W.slope x x y y = (3 * x ^ 2 + W.a₄) / (2 * y) := by
      rw [Affine.slope_of_Y_ne rfl hne, h.negY, h.a₁, h.a₂]
      congr 1 <;> ring
    refine ⟨?_, ?_, ?_⟩
    · rw [hNZ]
      exact mul_ne_zero (mul_ne_zero h2 hY) hZ
    · rw [hsl, Affine.addX, h.a₁, h.a₂, hNX, hM, hS, hNZ, hYe, hX]
      field_simp
      ring
    · rw [hsl, Affine.addY, Affine.negAddY, h.negY, Affine.addX, h.a₁, h.a₂, hNY, hNX, hM, hS, hNZ, hYe, hX]
      field_simp
      ring

theorem rep_add_inverse (h : Short W) {X₁ Y₁ Z₁ X₂ Y₂ Z₂ : F} {P Q : W.Point} (h1 : Rep X₁ Y₁ Z₁ P) (h2 : Rep X₂ Y₂ Z₂ Q)
    (hY₁ : Y₁ ≠ 0) (hY₂ : Y₂ ≠ 0) (hU : X₁ * Z₂ ^ 2 = X₂ * Z₁ ^ 2) :
    (Y₁ * Z₂ ^ 3 = Y₂ * Z₁ ^ 3 → P = Q) ∧ (Y₁ * Z₂ ^ 3 ≠ Y₂ * Z₁ ^ 3 → P + Q = 0) := by
  cases P with
  | zero => exact absurd h1.2 hY₁
  | some x₁ y₁ hn₁ =>
  cases Q with
  | zero => exact absurd h2.2 hY₂
  | some x₂ y₂ hn₂ =>
    obtain ⟨hZ₁, hX₁, hYe₁⟩ := h1
    obtain ⟨hZ₂, hX₂, hYe₂⟩ := h2
    have hx : x₁ = x₂ := by
      rw [hX₁, hX₂] at hU
      have : (x₁ - x₂) * (Z₁ ^ 2 * Z₂ ^ 2) = 0 := by linear_combination hU
      rcases mul_eq_zero.mp this with h' | h'
      · exact sub_eq_zero.mp h'
      · exact absurd h' (mul_ne_zero (pow_ne_zero _ hZ₁) (pow_ne_zero _ hZ₂))
    have hyy : Y₁ * Z₂ ^ 3 = Y₂ * Z₁ ^ 3 ↔ y₁ = y₂ := by
      rw [hYe₁, hYe₂]
      constructor
      · intro hh
        have : (y₁ - y₂) * (Z₁ ^ 3 * Z₂ ^ 3) = 0 := by linear_combination hh
        rcases mul_eq_zero.mp this with h' | h'
        · exact sub_eq_zero.mp h'
        · exact absurd h' (mul_ne_zero (pow_ne_zero _ hZ₁) (pow_ne_zero _ hZ₂))
      · rintro rfl; ring
    constructor
    · intro hh
      have := hyy.mp hh
      subst hx; subst this; rfl
    · intro hh
      have hne : y₁ ≠ y₂ := fun hc => hh (hyy.mpr hc)
      have := (Affine.Y_eq_of_X_eq hn₁.1 hn₂.1 hx).resolve_left hne
      exact Affine.Point.add_of_Y_eq hx this

theorem rep_add (h : Short W) {X₁ Y₁ Z₁ X₂ Y₂ Z₂ : F} {P Q : W.Point} (h1 : Rep X₁ Y₁ Z₁ P) (h2 : Rep X₂ Y₂ Z₂ Q)
    (hY₁ : Y₁ ≠ 0) (hY₂ : Y₂ ≠ 0) {U₁ U₂ S₁ S₂ H R X₃ Y₃ Z₃ : F}
    (hU₁ : U₁ = X₁ * Z₂ ^ 2) (hU₂ : U₂ = X₂ * Z₁ ^ 2) (hS₁ : S₁ = Y₁ * Z₂ ^ 3) (hS₂ : S₂ = Y₂ * Z₁ ^ 3)
    (hne : U₁ ≠ U₂) (hH : H = U₂ - U₁) (hR : R = S₂ - S₁)
    (hX₃ : X₃ = R ^ 2 - H ^ 3 - 2 * U₁ * H ^ 2) (hY₃ : Y₃ = R * (U₁ * H ^ 2 - X₃) - S₁ * H ^ 3) (hZ₃ : Z₃ = H * Z₁ * Z₂) :
    Rep X₃ Y₃ Z₃ (P + Q) := by
  cases P with
  | zero => exact absurd h1.2 hY₁
  | some x₁ y₁ hn₁ =>
  cases Q with
  | zero => exact absurd h2.2 hY₂
  | some x₂ y₂ hn₂ =>
    obtain ⟨hZ₁, hX₁, hYe₁⟩ := h1
    obtain ⟨hZ₂, hX₂, hYe₂⟩ := h2
    have hx : x₁ ≠ x₂ := by
      rintro rfl
      apply hne
      rw [hU₁, hU₂, hX₁, hX₂]; ring
    have hd : x₂ - x₁ ≠ 0 := sub_ne_zero.mpr hx.symm
    have hd' : x₁ - x₂ ≠ 0 := sub_ne_zero.mpr hx
    have hHe : H = (x₂ - x₁) * (Z₁ ^ 2 * Z₂ ^ 2) := by rw [hH, hU₁, hU₂, hX₁, hX₂]; ring
    have hRe : R = (y₂ - y₁) * (Z₁ ^ 3 * Z₂ ^ 3) := by rw [hR, hS₁, hS₂, hYe₁, hYe₂]; ring
    rw [Affine.Point.add_of_X_ne hx]
    have hsl : W.slope x₁ x₂ y₁ y₂ = (y₂ - y₁) / (x₂ - x₁) := by
      rw [Affine.slope_of_X_ne hx, ← neg_sub y₂, ← neg_sub x₂, neg_div_neg_eq]
    refine ⟨?_, ?_, ?_⟩
    · rw [hZ₃, hHe]
      exact mul_ne_zero (mul_ne_zero (mul_ne_zero hd (mul_ne_zero (pow_ne_zero _ hZ₁) (pow_ne_zero _ hZ₂))) hZ₁) hZ₂
    · rw [hsl, Affine.addX, h.a₁, h.a₂, hX₃, hZ₃, hU₁, hRe, hHe, hX₁]
      field_simp
      ring
    · rw [hsl, Affine.addY, Affine.negAddY, h.negY, Affine.addX, h.a₁, h.a₂, hY₃, hX₃, hZ₃, hU₁, hS₁, hRe, hHe, hX₁, hYe₁]
      field_simp
      ring

end ATLS.WProof
