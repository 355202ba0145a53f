import Mathlib.AlgebraicGeometry.EllipticCurve.Affine.Point
/-
The Montgomery ladder step over an abstract field: x-only doubling and differential addition on y² = x³ + Ax² + x.
-/
namespace ATLS.MProof
open WeierstrassCurve

variable {F : Type} [Field F] [DecidableEq F]

/-- A curve y² = x³ + Ax² + x in odd characteristic with A ≠ ±2. -/
structure Mont (W : Affine F) : Prop where
  a₁ : W.a₁ = 0
  a₃ : W.a₃ = 0
  a₄ : W.a₄ = 1
  a₆ : W.a₆ = 0
  two : (2 : F) ≠ 0
  plus : W.a₂ + 2 ≠ 0
  minus : W.a₂ - 2 ≠ 0

variable {W : Affine F}

theorem Mont.negY (h : Mont W) (x y : F) : W.negY x y = -y := by
  simp [Affine.negY, h.a₁, h.a₃]

theorem Mont.equation (h : Mont W) (x y : F) : W.Equation x y ↔ y ^ 2 = x ^ 3 + W.a₂ * x ^ 2 + x := by
  rw [Affine.equation_iff]
  simp [h.a₁, h.a₃, h.a₄, h.a₆]

/-- (X : Z) represents the x coordinate of a point; Z = 0 for infinity. -/
def Rep (X Z : F) : W.Point → Prop
  | .zero => Z = 0 ∧ X ≠ 0
  | .some x _ _ => Z ≠ 0 ∧ X = x * Z

theorem rep_double (h : Mont W) {X Z a24 : F} (ha : 4 * a24 = W.a₂ - 2) {P : W.Point} (hr : Rep X Z P) {AA BB E : F}
    (hA : AA = (X + Z) ^ 2) (hB : BB = (X - Z) ^ 2) (hE : E = AA - BB) : Rep (AA * BB) (E * (AA + a24 * E)) (P + P) := by
  have h2 := h.two
  have hE' : E = 4 * X * Z := by rw [hE, hA, hB]; ring
  have hZ' : E * (AA + a24 * E) = 4 * X * Z * (X ^ 2 + W.a₂ * X * Z + Z ^ 2) := by
    rw [hE', hA]; linear_combination (4 * X * Z) * (X * Z) * ha
  have hX' : AA * BB = (X ^ 2 - Z ^ 2) ^ 2 := by rw [hA, hB]; ring
  rw [hZ', hX']
  cases P with
  | zero =>
    obtain ⟨hZ, hX⟩ := hr
    rw [show (Affine.Point.zero : W.Point) + .zero = 0 from add_zero _]
    refine ⟨by rw [hZ]; ring, ?_⟩
    rw [hZ]
    have : (X ^ 2 - 0 ^ 2) ^ 2 = X ^ 4 := by ring
    rw [this]; exact pow_ne_zero _ hX
  | some x y hn =>
    obtain ⟨hZ, hX⟩ := hr
    have he := (h.equation x y).mp hn.1
    by_cases hy : y = 0
    · have hneg : y = W.negY x y := by rw [h.negY, hy, neg_zero]
      rw [Affine.Point.add_of_Y_eq rfl hneg]
      refine ⟨?_, ?_⟩
      · rw [hX]
        rw [hy] at he
        linear_combination (-4 * Z ^ 4) * he
      · rw [hX]
        have hx : x ^ 2 - 1 ≠ 0 := by
          intro hx
          have hx' : (x - 1) * (x + 1) = 0 := by linear_combination hx
          rw [hy] at he
          rcases mul_eq_zero.mp hx' with hx' | hx'
          · have hx1 : x = 1 := by linear_combination hx'
            rw [hx1] at he
            exact h.plus (by linear_combination -he)
          · have hx1 : x = -1 := by linear_combination hx'
            rw [hx1] at he
            exact h.minus (by linear_combination -he)
        have : ((x * Z) ^ 2 - Z ^ 2) ^ 2 = ((x ^ 2 - 1) * Z ^ 2) ^ 2 := by ring
        rw [this]
        exact pow_ne_zero _ (mul_ne_zero hx (pow_ne_zero _ hZ))
    · have hne : y ≠ W.negY x y := by
        rw [h.negY]
        intro hh
        apply hy
        have : (2 : F) * y = 0 := by linear_combination hh
        exact (mul_eq_zero.mp this).resolve_left h2
      rw [Affine.Point.add_self_of_Y_ne hne]
      have hsl : W.slope x x y y = (3 * x ^ 2 + 2 * W.a₂ * x + 1) / (2 * y) := by
        rw [Affine.slope_of_Y_ne rfl hne, h.negY, h.a₁, h.a₄]
        congr 1 <;> ring
      have h4 : 4 * X * Z * (X ^ 2 + W.a₂ * X * Z + Z ^ 2) = (2 * y * Z ^ 2) ^ 2 := by
        rw [hX]; linear_combination (-4 * Z ^ 4) * he
      rw [h4]
      refine ⟨pow_ne_zero _ (mul_ne_zero (mul_ne_zero h2 hy) (pow_ne_zero _ hZ)), ?_⟩
      rw [hsl, Affine.addX, h.a₁, hX]
      field_simp
      linear_combination (4 * W.a₂ + 8 * x) * he

theorem rep_diffadd (h : Mont W) {a24 : F} (ha : 4 * a24 = W.a₂ - 2) {X₂ Z₂ X₃ Z₃ x₁ y₁ : F} {P Q : W.Point}
    {hn₁ : W.Nonsingular x₁ y₁} (hP : Rep X₂ Z₂ P)
    (hQ : Rep X₃ Z₃ Q) (hd : Q = P + .some x₁ y₁ hn₁) (hx₁ : x₁ ≠ 0) {DA CB : F} (hDA : DA = (X₃ - Z₃) * (X₂ + Z₂))
    (hCB : CB = (X₃ + Z₃) * (X₂ - Z₂)) : Rep ((DA + CB) ^ 2) (x₁ * (DA - CB) ^ 2) (P + Q) := by
  have h2 := h.two
  have hX' : (DA + CB) ^ 2 = (2 * (X₂ * X₃ - Z₂ * Z₃)) ^ 2 := by rw [hDA, hCB]; ring
  have hZ' : x₁ * (DA - CB) ^ 2 = x₁ * (2 * (X₃ * Z₂ - X₂ * Z₃)) ^ 2 := by rw [hDA, hCB]; ring
  rw [hX', hZ']
  cases P with
  | zero =>
    rw [show (Affine.Point.zero : W.Point) + .some x₁ y₁ hn₁ = .some x₁ y₁ hn₁ from zero_add _] at hd
    subst hd
    rw [show (Affine.Point.zero : W.Point) + .some x₁ y₁ hn₁ = .some x₁ y₁ hn₁ from zero_add _]
    obtain ⟨hz2, hx2⟩ := hP
    obtain ⟨hz3, hx3⟩ := hQ
    rw [hz2, hx3]
    constructor
    · refine mul_ne_zero hx₁ (pow_ne_zero _ (mul_ne_zero h2 ?_))
      rw [mul_zero, zero_sub]
      exact neg_ne_zero.mpr (mul_ne_zero hx2 hz3)
    · ring
  | some x₂ y₂ hn₂ =>
  cases Q with
  | zero =>
    have hP' : Affine.Point.some x₂ y₂ hn₂ = -Affine.Point.some x₁ y₁ hn₁ := by
      rw [eq_neg_iff_add_eq_zero]; exact hd.symm
    rw [Affine.Point.neg_some] at hP'
    rw [Affine.Point.some.injEq] at hP'
    rw [show Affine.Point.some x₂ y₂ hn₂ + .zero = .some x₂ y₂ hn₂ from add_zero _]
    obtain ⟨hz2, hx2⟩ := hP
    obtain ⟨hz3, hx3⟩ := hQ
    obtain ⟨rfl, -⟩ := hP'
    rw [hz3, hx2]
    constructor
    · refine mul_ne_zero hx₁ (pow_ne_zero _ (mul_ne_zero h2 ?_))
      rw [mul_zero, sub_zero]
      exact mul_ne_zero hx3 hz2
    · ring
  | some x₃ y₃ hn₃ =>
    have hd' : Affine.Point.some x₁ y₁ hn₁ = .some x₃ y₃ hn₃ + -.some x₂ y₂ hn₂ := by
      rw [hd]; abel
    obtain ⟨hz2, hx2⟩ := hP
    obtain ⟨hz3, hx3⟩ := hQ
    have e2 := (h.equation x₂ y₂).mp hn₂.1
    have e3 := (h.equation x₃ y₃).mp hn₃.1
    by_cases hxx : x₂ = x₃
    · rcases Affine.Y_eq_of_X_eq hn₂.1 hn₃.1 hxx with hy | hy
      · exfalso
        subst hxx; subst hy
        rw [add_neg_cancel] at hd'
        cases hd'
      · have hneg : -Affine.Point.some x₂ y₂ hn₂ = .some x₃ y₃ hn₃ := by
          rw [Affine.Point.neg_some, Affine.Point.some.injEq]
          refine ⟨hxx, ?_⟩
          rw [h.negY] at hy ⊢
          rw [hy, neg_neg]
        rw [hneg] at hd'
        have hr : Rep x₃ 1 (Affine.Point.some x₃ y₃ hn₃) := ⟨one_ne_zero, (mul_one _).symm⟩
        have := rep_double h ha hr rfl rfl rfl
        rw [← hd'] at this
        obtain ⟨g1, g2⟩ := this
        rw [Affine.Point.add_of_Y_eq hxx hy]
        refine ⟨by rw [hx2, hx3, hxx]; ring, ?_⟩
        rw [hx2, hx3, hxx]
        have g3 : ((x₃ + 1) ^ 2 * (x₃ - 1) ^ 2) ≠ 0 := by rw [g2]; exact mul_ne_zero hx₁ g1
        have g4 : x₃ ^ 2 - 1 ≠ 0 := by
          intro hh
          apply g3
          have : (x₃ + 1) ^ 2 * (x₃ - 1) ^ 2 = (x₃ ^ 2 - 1) ^ 2 := by ring
          rw [this, hh]; ring
        have : (2 * (x₃ * Z₂ * (x₃ * Z₃) - Z₂ * Z₃)) ^ 2 = (2 * ((x₃ ^ 2 - 1) * (Z₂ * Z₃))) ^ 2 := by ring
        rw [this]
        exact pow_ne_zero _ (mul_ne_zero h2 (mul_ne_zero g4 (mul_ne_zero hz2 hz3)))
    · have hd2 : x₂ - x₃ ≠ 0 := sub_ne_zero.mpr hxx
      have hd3 : x₃ - x₂ ≠ 0 := sub_ne_zero.mpr (Ne.symm hxx)
      rw [Affine.Point.neg_some, Affine.Point.add_of_X_ne (Ne.symm hxx), Affine.Point.some.injEq] at hd'
      have hx1 := hd'.1
      rw [Affine.slope_of_X_ne (Ne.symm hxx), Affine.addX, h.a₁, h.negY] at hx1
      rw [Affine.Point.add_of_X_ne hxx]
      refine ⟨?_, ?_⟩
      · refine mul_ne_zero hx₁ (pow_ne_zero _ (mul_ne_zero h2 ?_))
        have : X₃ * Z₂ - X₂ * Z₃ = (x₃ - x₂) * (Z₂ * Z₃) := by rw [hx2, hx3]; ring
        rw [this]
        exact mul_ne_zero hd3 (mul_ne_zero hz2 hz3)
      · rw [Affine.slope_of_X_ne hxx, Affine.addX, h.a₁, hx1, hx2, hx3]
        have key : ((y₃ + y₂) ^ 2 - (W.a₂ + x₂ + x₃) * (x₃ - x₂) ^ 2) * ((y₂ - y₃) ^ 2 - (W.a₂ + x₂ + x₃) * (x₃ - x₂) ^ 2)
            = (x₂ * x₃ - 1) ^ 2 * (x₃ - x₂) ^ 2 := by
          linear_combination
            e2 * (y₂ ^ 2 + (x₂ ^ 3 + W.a₂ * x₂ ^ 2 + x₂) - 2 * y₃ ^ 2 - 2 * ((W.a₂ + x₂ + x₃) * (x₃ - x₂) ^ 2)) +
            e3 * (y₃ ^ 2 + (x₃ ^ 3 + W.a₂ * x₃ ^ 2 + x₃) - 2 * (x₂ ^ 3 + W.a₂ * x₂ ^ 2 + x₂)
              - 2 * ((W.a₂ + x₂ + x₃) * (x₃ - x₂) ^ 2))
        have hs1 : (y₃ - -y₂) / (x₃ - x₂) = (y₃ + y₂) / (x₃ - x₂) := by ring
        have hs2 : (y₂ - y₃) / (x₂ - x₃) = -((y₂ - y₃) / (x₃ - x₂)) := by
          rw [← neg_sub x₃ x₂, div_neg]
        rw [hs1, hs2]
        field_simp
        linear_combination -key

end ATLS.MProof
