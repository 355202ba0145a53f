import Verif.Model.Ec
import Mathlib.Data.Int.ModEq
import Mathlib.Data.Int.GCD
import Mathlib.Tactic.Ring
import Mathlib.Tactic.LinearCombination
/-
Correctness of `rem_euclid` and `inv`.
-/
namespace ATLS.ModProof
open ATLS.Model

theorem remEuclid_eq (x v : Int) (hv : v ≠ 0) : remEuclid x v = x % v := by
  unfold remEuclid
  rw [Int.tmod_eq_emod]
  have h0 := Int.emod_nonneg x hv
  have h1 := Int.emod_lt_abs x hv
  simp only []
  by_cases h : 0 ≤ x ∨ v ∣ x
  · simp only [if_pos h]
    rw [if_neg (by simpa using h0)]
    simp
  · simp only [if_neg h]
    push Not at h
    have hne : x % v ≠ 0 := fun hh => h.2 (Int.dvd_of_emod_eq_zero hh)
    rcases Int.lt_or_gt_of_ne hv with hneg | hpos
    · rw [abs_of_neg hneg] at h1
      rw [if_pos (by omega), if_pos hneg]
      omega
    · rw [abs_of_pos hpos] at h1
      rw [if_pos (by omega), if_neg (by omega)]
      omega

theorem invLoop_spec (x n : Int) : ∀ (fuel : Nat) (lm hm low high : Int), low.toNat < fuel → 0 ≤ low → 1 < high →
    lm * x ≡ low [ZMOD n] → hm * x ≡ high [ZMOD n] → Int.gcd low high = 1 →
    invLoop fuel lm hm low high * x ≡ 1 [ZMOD n] := by
  intro fuel
  induction fuel with
  | zero => intro lm hm low high h; omega
  | succ fuel ih =>
    intro lm hm low high hf h0 hh hl hhm hg
    rw [invLoop]
    by_cases h1 : low > 1
    · rw [if_pos h1]
      have hdiv : high.tdiv low = high / low := Int.tdiv_eq_ediv_of_nonneg (by omega)
      have hnw : high - low * (high / low) = high % low := by
        have := Int.emod_add_mul_ediv high low; omega
      have hlt := Int.emod_lt_of_pos high (show 0 < low by omega)
      have hnn := Int.emod_nonneg high (show low ≠ 0 by omega)
      simp only [hdiv, hnw]
      refine ih _ _ _ _ (by omega) hnn h1 ?_ hl ?_
      · rw [← hnw]
        have : (hm - lm * (high / low)) * x = hm * x - (lm * x) * (high / low) := by ring
        rw [this]
        exact hhm.sub (hl.mul_right _)
      · rw [← hnw, Int.gcd_sub_mul_left_left, Int.gcd_comm]
        exact hg
    · rw [if_neg h1]
      have : low = 1 := by
        by_contra hne
        have : low = 0 := by omega
        subst this
        rw [Int.gcd_zero_left] at hg
        omega
      rw [this] at hl
      exact hl

theorem inv_spec (x n : Int) (hn : 1 < n) (hx : 0 ≤ x) (hg : Int.gcd x n = 1) : inv x n * x ≡ 1 [ZMOD n] := by
  have hx0 : x ≠ 0 := by
    rintro rfl
    rw [Int.gcd_zero_left] at hg
    omega
  unfold inv
  rw [if_neg hx0, remEuclid_eq _ _ (by omega), Int.tmod_eq_emod_of_nonneg hx]
  refine ((Int.mod_modEq _ _).mul_right _).trans ?_
  refine invLoop_spec x n _ _ _ _ _ (by omega) (Int.emod_nonneg _ (by omega)) hn ?_ ?_ ?_
  · rw [one_mul]; exact (Int.mod_modEq _ _).symm
  · rw [zero_mul]; exact (Int.modEq_zero_iff_dvd.mpr dvd_rfl).symm
  · have : x % n = x - n * (x / n) := by
      have := Int.emod_add_mul_ediv x n; omega
    rw [this, Int.gcd_sub_mul_left_left]; exact hg

theorem inv_range (x n : Int) (hn : 1 < n) : 0 ≤ inv x n ∧ inv x n < n := by
  unfold inv
  split
  · omega
  · rw [remEuclid_eq _ _ (by omega)]
    exact ⟨Int.emod_nonneg _ (by omega), Int.emod_lt_of_pos _ (by omega)⟩

end ATLS.ModProof
