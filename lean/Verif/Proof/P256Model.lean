import Verif.Proof.P256
import Verif.Proof.ModArith
/-
The integer code for P-256 refines the group operations.
-/
namespace ATLS.P256Proof
open WeierstrassCurve ATLS.Spec.P256 ATLS.Model ATLS.ModProof

theorem curve_p : Curve.secp256r1.p = (p : Int) := by decide +kernel
theorem curve_n : Curve.secp256r1.n = (n : Int) := by decide +kernel
theorem curve_a : ((Curve.secp256r1.a : Int) : ZMod p) = -3 := by
  have h : Curve.secp256r1.a = ((p - 3 : ℕ) : Int) := by decide +kernel
  rw [h, Int.cast_natCast, Nat.cast_sub (by decide +kernel)]
  simp

theorem p_pos : (0 : Int) < (p : Int) := by decide +kernel

theorem cast_rem (v : Int) : ((remEuclid v (p : Int) : Int) : ZMod p) = (v : ZMod p) := by
  rw [remEuclid_eq _ _ p_pos.ne']
  exact ZMod.intCast_mod v p

theorem rem_range (v : Int) : 0 ≤ remEuclid v (p : Int) ∧ remEuclid v (p : Int) < p := by
  rw [remEuclid_eq _ _ p_pos.ne']
  exact ⟨Int.emod_nonneg _ p_pos.ne', Int.emod_lt_of_pos _ p_pos⟩

theorem eq_of_cast {u v : Int} (hu : 0 ≤ u ∧ u < p) (hv : 0 ≤ v ∧ v < p) (h : (u : ZMod p) = v) : u = v := by
  rw [ZMod.intCast_eq_intCast_iff] at h
  unfold Int.ModEq at h
  rwa [Int.emod_eq_of_lt hu.1 hu.2, Int.emod_eq_of_lt hv.1 hv.2] at h

theorem cast_ne_zero {u : Int} (hu : 0 ≤ u ∧ u < p) : (u : ZMod p) = 0 ↔ u = 0 := by
  constructor
  · intro h
    exact eq_of_cast hu ⟨le_refl _, p_pos⟩ (by simpa using h)
  · rintro rfl; simp

/-- A Jacobian triple of integers in [0, p) that represents a point. -/
structure JRep (J : JacobianPoint) (P : Group) : Prop where
  x : 0 ≤ J.x ∧ J.x < p
  y : 0 ≤ J.y ∧ J.y < p
  z : 0 ≤ J.z ∧ J.z < p
  rep : WProof.Rep (J.x : ZMod p) (J.y : ZMod p) (J.z : ZMod p) P

theorem JRep.y_zero {J : JacobianPoint} {P : Group} (h : JRep J P) : J.y = 0 ↔ P = 0 := by
  rw [← cast_ne_zero h.y]
  exact WProof.rep_zero_iff short h.rep

theorem zero_range : (0 : Int) ≤ 0 ∧ (0 : Int) < p := ⟨le_refl _, p_pos⟩
theorem one_range : (0 : Int) ≤ 1 ∧ (1 : Int) < p := by decide +kernel

theorem jrep_zero0 : JRep ⟨0, 0, 0⟩ 0 := ⟨zero_range, zero_range, zero_range, by simpa using WProof.rep_infinity _⟩
theorem jrep_zero1 : JRep ⟨0, 0, 1⟩ 0 := ⟨zero_range, zero_range, one_range, by simpa using WProof.rep_infinity _⟩

theorem double_rep {J : JacobianPoint} {P : Group} (h : JRep J P) : JRep (jacobianDouble J .secp256r1) (P + P) := by
  unfold jacobianDouble
  by_cases hy : J.y = 0
  · rw [if_pos hy, h.y_zero.mp hy, add_zero]
    exact jrep_zero0
  rw [if_neg hy]
  have hY : (J.y : ZMod p) ≠ 0 := fun hh => hy ((cast_ne_zero h.y).mp hh)
  simp only [curve_p]
  refine ⟨rem_range _, rem_range _, rem_range _, ?_⟩
  refine WProof.rep_double short h.rep hY (S := 4 * J.x * J.y ^ 2) (M := 3 * J.x ^ 2 + curve.a₄ * J.z ^ 4) rfl rfl ?_ ?_ ?_
  · simp only [cast_rem, Int.cast_sub, Int.cast_mul, Int.cast_pow, Int.cast_add, curve_a, Int.cast_ofNat]
    simp only [curve]; ring
  · simp only [cast_rem, Int.cast_sub, Int.cast_mul, Int.cast_pow, Int.cast_add, curve_a, Int.cast_ofNat]
    simp only [curve]; ring
  · simp only [cast_rem, Int.cast_mul, Int.cast_ofNat]
    ring

theorem add_rep {J K : JacobianPoint} {P Q : Group} (h : JRep J P) (h' : JRep K Q) :
    JRep (jacobianAdd J K .secp256r1) (P + Q) := by
  unfold jacobianAdd
  by_cases hy : J.y = 0
  · rw [if_pos hy, h.y_zero.mp hy, zero_add]
    exact h'
  rw [if_neg hy]
  by_cases hy' : K.y = 0
  · rw [if_pos hy', h'.y_zero.mp hy', add_zero]
    exact h
  rw [if_neg hy']
  have hY : (J.y : ZMod p) ≠ 0 := fun hh => hy ((cast_ne_zero h.y).mp hh)
  have hY' : (K.y : ZMod p) ≠ 0 := fun hh => hy' ((cast_ne_zero h'.y).mp hh)
  simp only [curve_p]
  by_cases hu : remEuclid (J.x * K.z ^ 2) p = remEuclid (K.x * J.z ^ 2) p
  · rw [if_pos hu]
    have hU : (J.x : ZMod p) * K.z ^ 2 = K.x * J.z ^ 2 := by
      have := congrArg (fun v : Int => (v : ZMod p)) hu
      simpa only [cast_rem, Int.cast_mul, Int.cast_pow] using this
    have hinv := WProof.rep_add_inverse short h.rep h'.rep hY hY' hU
    by_cases hs : remEuclid (J.y * K.z ^ 3) p = remEuclid (K.y * J.z ^ 3) p
    · rw [if_neg (by simpa using hs)]
      have hS : (J.y : ZMod p) * K.z ^ 3 = K.y * J.z ^ 3 := by
        have := congrArg (fun v : Int => (v : ZMod p)) hs
        simpa only [cast_rem, Int.cast_mul, Int.cast_pow] using this
      rw [← hinv.1 hS]
      exact double_rep h
    · rw [if_pos (by simpa using hs)]
      rw [hinv.2]
      · exact jrep_zero1
      · intro hS
        apply hs
        refine eq_of_cast (rem_range _) (rem_range _) ?_
        simpa only [cast_rem, Int.cast_mul, Int.cast_pow] using hS
  · rw [if_neg hu]
    refine ⟨rem_range _, rem_range _, rem_range _, ?_⟩
    refine WProof.rep_add short h.rep h'.rep hY hY' (U₁ := J.x * K.z ^ 2) (U₂ := K.x * J.z ^ 2) (S₁ := J.y * K.z ^ 3)
      (S₂ := K.y * J.z ^ 3) rfl rfl rfl rfl ?_ rfl rfl ?_ ?_ ?_
    · intro hU
      apply hu
      refine eq_of_cast (rem_range _) (rem_range _) ?_
      simpa only [cast_rem, Int.cast_mul, Int.cast_pow] using hU
    · simp only [cast_rem, Int.cast_sub, Int.cast_mul, Int.cast_pow, Int.cast_ofNat]
      ring
    · simp only [cast_rem, Int.cast_sub, Int.cast_mul, Int.cast_pow, Int.cast_ofNat]
      ring
    · simp only [cast_rem, Int.cast_sub, Int.cast_mul, Int.cast_pow]

theorem toPoint_rep {J : JacobianPoint} {P : Group} (h : JRep J P) : J.toPoint p = ⟨(coords P).1, (coords P).2⟩ := by
  unfold JacobianPoint.toPoint
  have hir := inv_range J.z p (by decide +kernel)
  simp only []
  rw [Int.tmod_eq_emod_of_nonneg (mul_nonneg h.x.1 (pow_nonneg hir.1 _)),
    Int.tmod_eq_emod_of_nonneg (mul_nonneg h.y.1 (pow_nonneg hir.1 _))]
  have hr := h.rep
  cases P with
  | zero =>
    have hx := (cast_ne_zero h.x).mp hr.1
    have hy := (cast_ne_zero h.y).mp hr.2
    simp [hx, hy, coords]
  | some x y hn =>
    obtain ⟨hZ, hX, hY⟩ := hr
    have hz0 : J.z ≠ 0 := fun hh => hZ (by simp [hh])
    have hg : Int.gcd J.z p = 1 := by
      rw [Int.gcd_comm, Int.gcd_eq_natAbs, Int.natAbs_natCast]
      rw [← Nat.Coprime, Nat.Prime.coprime_iff_not_dvd Fact.out]
      intro hd
      have := Nat.le_of_dvd (by omega) hd
      have := h.z
      omega
    have hi := inv_spec J.z p (by decide +kernel) h.z.1 hg
    have hic : ((inv J.z p : Int) : ZMod p) * (J.z : ZMod p) = 1 := by
      have := (ZMod.intCast_eq_intCast_iff _ _ p).mpr hi
      simpa only [Int.cast_mul, Int.cast_one] using this
    have hval : ∀ (v : Int) (w : ZMod p), (v : ZMod p) = w → v % p = w.val := by
      intro v w hvw
      rw [← hvw, ZMod.val_intCast]
    simp only [coords, Point.mk.injEq]
    constructor
    · apply hval
      rw [Int.cast_mul, Int.cast_pow, hX]
      linear_combination (((inv J.z p : Int) : ZMod p) * (J.z : ZMod p) + 1) * x * hic
    · apply hval
      rw [Int.cast_mul, Int.cast_pow, hY]
      have h3 : ((inv J.z p : Int) : ZMod p) ^ 3 * (J.z : ZMod p) ^ 3 = 1 := by rw [← mul_pow, hic, one_pow]
      linear_combination y * h3

theorem fromPoint_rep (P : Group) : JRep (.fromPoint ⟨(coords P).1, (coords P).2⟩) P := by
  cases P with
  | zero => exact jrep_zero1
  | some x y hn =>
    have hv : ∀ w : ZMod p, 0 ≤ ((w.val : ℕ) : Int) ∧ ((w.val : ℕ) : Int) < p := fun w =>
      ⟨Int.natCast_nonneg _, by exact_mod_cast ZMod.val_lt w⟩
    refine ⟨hv x, hv y, one_range, ?_⟩
    simp only [JacobianPoint.fromPoint, coords]
    refine ⟨by simp, ?_, ?_⟩ <;> simp

/-- Small scalars: enough fuel and no reduction. -/
theorem multiplyAux_rep {J : JacobianPoint} {P : Group} (h : JRep J P) : ∀ (fuel : ℕ) (k : ℕ), k < 2 ^ fuel → k < n →
    JRep (jacobianMultiplyAux (fuel + 1) J k .secp256r1) (k • P) := by
  intro fuel
  induction fuel with
  | zero =>
    intro k hk _
    have : k = 0 := by simpa using hk
    subst this
    rw [jacobianMultiplyAux, if_pos (Or.inr (by simp)), zero_nsmul]
    exact jrep_zero1
  | succ fuel ih =>
    intro k hk hkn
    rw [jacobianMultiplyAux]
    by_cases h0 : J.y = 0 ∨ (k : Int) = 0
    · rw [if_pos h0]
      have : k • P = 0 := by
        rcases h0 with h0 | h0
        · rw [h.y_zero.mp h0, nsmul_zero]
        · rw [show k = 0 by exact_mod_cast h0, zero_nsmul]
      rw [this]
      exact jrep_zero1
    rw [if_neg h0]
    by_cases h1 : (k : Int) = 1
    · rw [if_pos h1, show k = 1 by exact_mod_cast h1, one_nsmul]
      exact h
    rw [if_neg h1, if_neg (by rw [curve_n]; push Not; constructor <;> omega)]
    have hdiv : (k : Int).tdiv 2 = ((k / 2 : ℕ) : Int) := by
      rw [Int.tdiv_eq_ediv_of_nonneg (by omega)]; omega
    have hq := double_rep (ih (k / 2) (by rw [pow_succ] at hk; omega) (by omega))
    rw [hdiv]
    have hrem : remEuclid (k : Int) 2 = ((k % 2 : ℕ) : Int) := by
      rw [remEuclid_eq _ _ (by norm_num)]; omega
    simp only [hrem]
    rw [← add_nsmul] at hq
    by_cases hodd : k % 2 = 0
    · rw [if_pos (by exact_mod_cast hodd)]
      rwa [show k / 2 + k / 2 = k by omega] at hq
    · rw [if_neg (by exact_mod_cast hodd)]
      have := add_rep hq h
      rwa [← succ_nsmul, show k / 2 + k / 2 + 1 = k by omega] at this

theorem base_neg : (jacobianMultiplyAux 257 (.fromPoint ⟨gx, gy⟩) (n - 1 : ℕ) .secp256r1).toPoint p = ⟨gx, p - gy⟩ := by
  decide +kernel

end ATLS.P256Proof
