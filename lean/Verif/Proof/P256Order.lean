import Verif.Proof.P256Model
/-
P-256 has exactly n points, so n annihilates every point.
-/
namespace ATLS.P256Proof
open WeierstrassCurve ATLS.Spec.P256 ATLS.Model ATLS.ModProof

theorem coords_G : coords G = ((gx : Int), (gy : Int)) := by
  have hx : (gx : ZMod p).val = gx := ZMod.val_natCast_of_lt (by decide +kernel)
  have hy : (gy : ZMod p).val = gy := ZMod.val_natCast_of_lt (by decide +kernel)
  simp only [coords, G, hx, hy]

theorem coords_injective : Function.Injective coords := by
  have hzero : ∀ (x y : ZMod p) (hn : curve.Nonsingular x y), coords (.some x y hn) ≠ (0, 0) := by
    intro x y hn h
    have hy : ((y.val : ℕ) : Int) = 0 := congrArg Prod.snd h
    have hy0 : y.val = 0 := by exact_mod_cast hy
    exact short.noTwo x y hn.1 ((ZMod.val_eq_zero y).mp hy0)
  intro P Q h
  cases P with
  | zero =>
    cases Q with
    | zero => rfl
    | some x y hn => exact absurd h.symm (hzero x y hn)
  | some x y hn =>
    cases Q with
    | zero => exact absurd h (hzero x y hn)
    | some x' y' hn' =>
      have hx : ((x.val : ℕ) : Int) = (x'.val : ℕ) := congrArg Prod.fst h
      have hy : ((y.val : ℕ) : Int) = (y'.val : ℕ) := congrArg Prod.snd h
      have hx' : x = x' := ZMod.val_injective p (by exact_mod_cast hx)
      have hy' : y = y' := ZMod.val_injective p (by exact_mod_cast hy)
      subst hx'; subst hy'; rfl

theorem G_ne_zero : G ≠ 0 := by
  intro h; cases h

theorem neg_coords (x y : ZMod p) (hn : curve.Nonsingular x y) :
    coords (-(.some x y hn : Group)) = ((x.val : Int), (p : Int) - y.val) := by
  rw [Affine.Point.neg_some]
  simp only [coords, short.negY]
  have hy := short.noTwo x y hn.1
  have : (-y).val = p - y.val := by rw [ZMod.neg_val, if_neg hy]
  rw [this, Nat.cast_sub (ZMod.val_lt y).le]

theorem n_sub_one_G : (n - 1) • G = -G := by
  apply coords_injective
  have hx : (gx : ZMod p).val = gx := ZMod.val_natCast_of_lt (by decide +kernel)
  have hy : (gy : ZMod p).val = gy := ZMod.val_natCast_of_lt (by decide +kernel)
  have h1 := fromPoint_rep G
  have h2 := toPoint_rep (multiplyAux_rep h1 256 (n - 1) (by decide +kernel) (by decide +kernel))
  have h3 := neg_coords _ _ base_nonsingular
  rw [hx, hy] at h3
  rw [coords_G, base_neg, Point.mk.injEq] at h2
  change coords ((n - 1) • G) = coords (-(.some _ _ base_nonsingular : Group))
  rw [h3]
  exact Prod.ext h2.1.symm h2.2.symm

theorem n_G : n • G = 0 := by
  have : n = (n - 1) + 1 := by decide +kernel
  rw [this, succ_nsmul, n_sub_one_G, neg_add_cancel]

theorem order_G : addOrderOf G = n := addOrderOf_eq_prime n_G G_ne_zero

/-- Points of P-256 are determined by their x coordinate and the parity of y. -/
def compress : Group → Option (ZMod p × Bool)
  | .zero => none
  | .some x y _ => some (x, decide (y.val % 2 = 0))

theorem compress_injective : Function.Injective compress := by
  intro P Q h
  cases P with
  | zero => cases Q with
    | zero => rfl
    | some x y hn => cases h
  | some x y hn => cases Q with
    | zero => cases h
    | some x' y' hn' =>
      simp only [compress, Option.some.injEq, Prod.mk.injEq, decide_eq_decide] at h
      obtain ⟨hx, hy⟩ := h
      subst hx
      rcases Affine.Y_eq_of_X_eq hn.1 hn'.1 rfl with h' | h'
      · subst h'; rfl
      · exfalso
        rw [short.negY] at h'
        have hy0 := short.noTwo _ _ hn'.1
        have hv : y.val = p - y'.val := by rw [h', ZMod.neg_val, if_neg hy0]
        have hlt := ZMod.val_lt y'
        have hodd : p % 2 = 1 := by decide +kernel
        omega

instance : Finite Group := Finite.of_injective _ compress_injective

theorem card_le : Nat.card Group ≤ 2 * p + 1 := by
  have h := Nat.card_le_card_of_injective _ compress_injective
  have h2 : Nat.card (Option (ZMod p × Bool)) = 2 * p + 1 := by
    rw [Finite.card_option, Nat.card_prod, Nat.card_eq_fintype_card, ZMod.card, Nat.card_eq_fintype_card, Fintype.card_bool]
    ring
  rwa [h2] at h

theorem no_two_torsion (P : Group) (h : 2 • P = 0) : P = 0 := by
  cases P with
  | zero => rfl
  | some x y hn =>
    exfalso
    rw [two_nsmul, add_eq_zero_iff_eq_neg, Affine.Point.neg_some] at h
    simp only [Affine.Point.some.injEq, short.negY, true_and] at h
    have hy := short.noTwo _ _ hn.1
    have : (2 : ZMod p) * y = 0 := by linear_combination h
    rcases mul_eq_zero.mp this with h' | h'
    · exact two_ne h'
    · exact hy h'

theorem card_eq : Nat.card Group = n := by
  have hdvd : n ∣ Nat.card Group := by
    rw [← order_G]; exact addOrderOf_dvd_natCard G
  obtain ⟨c, hc⟩ := hdvd
  have hle := card_le
  have hpos : 0 < Nat.card Group := Nat.card_pos
  have hb : 2 * p + 1 < 3 * n := by decide +kernel
  have hc3 : c < 3 := by
    by_contra hh
    have : n * 3 ≤ n * c := Nat.mul_le_mul_left _ (by omega)
    omega
  have hc0 : c ≠ 0 := by rintro rfl; simp at hc; omega
  have hc2 : c ≠ 2 := by
    rintro rfl
    have h2 : 2 ∣ Nat.card Group := ⟨n, by rw [hc, mul_comm]⟩
    obtain ⟨Q, hQ⟩ := exists_prime_addOrderOf_dvd_card' 2 h2
    have h0 : Q = 0 := no_two_torsion Q (by rw [← hQ]; exact addOrderOf_nsmul_eq_zero Q)
    rw [h0, addOrderOf_zero] at hQ
    omega
  have : c = 1 := by omega
  rw [hc, this, mul_one]

theorem n_smul (P : Group) : n • P = 0 := by
  rw [← card_eq]; exact card_nsmul_eq_zero'

theorem zsmul_mod (k : Int) (P : Group) : (k % (n : Int)) • P = k • P := by
  have h : k = k % (n : Int) + n * (k / n) := (Int.emod_add_mul_ediv k n).symm
  conv_rhs => rw [h]
  rw [add_zsmul, mul_comm, mul_zsmul, natCast_zsmul, n_smul, zsmul_zero, add_zero]

theorem zsmul_eq_zero (k : Int) (P : Group) (hP : P ≠ 0) : k • P = 0 ↔ (n : Int) ∣ k := by
  have ho : addOrderOf P = n := addOrderOf_eq_prime (n_smul P) hP
  rw [← addOrderOf_dvd_iff_zsmul_eq_zero, ho]

/-- `jacobian_multiply` computes the group multiple for every integer scalar. -/
theorem multiply_rep {J : JacobianPoint} {P : Group} (h : JRep J P) (k : Int) :
    JRep (jacobianMultiply J k .secp256r1) (k • P) := by
  have hlog : Curve.secp256r1.n.toNat.log2 + 4 = 258 + 1 := by decide +kernel
  have hn2 : n < 2 ^ 257 := by decide +kernel
  have hnpos : (0 : Int) < n := by decide +kernel
  unfold jacobianMultiply
  rw [hlog]
  by_cases hk : 0 ≤ k ∧ k < n
  · obtain ⟨m, rfl⟩ := Int.eq_ofNat_of_zero_le hk.1
    rw [natCast_zsmul]
    have hm : m < n := by exact_mod_cast hk.2
    exact multiplyAux_rep h 258 m (by omega) hm
  · rw [jacobianMultiplyAux]
    have hk01 : k ≠ 0 ∧ k ≠ 1 := by
      have : (1 : Int) < n := by decide +kernel
      omega
    by_cases h0 : J.y = 0 ∨ k = 0
    · rw [if_pos h0, h.y_zero.mp (h0.resolve_right hk01.1), zsmul_zero]
      exact jrep_zero1
    rw [if_neg h0, if_neg hk01.2, curve_n, if_pos (by omega), remEuclid_eq _ _ hnpos.ne']
    rw [← zsmul_mod k P]
    have h1 := Int.emod_nonneg k hnpos.ne'
    have h2 := Int.emod_lt_of_pos k hnpos
    obtain ⟨m, hm⟩ := Int.eq_ofNat_of_zero_le h1
    rw [hm] at h2 ⊢
    rw [natCast_zsmul]
    have hm' : m < n := by exact_mod_cast h2
    exact multiplyAux_rep h 257 m (by omega) hm'

end ATLS.P256Proof
