import Verif.Proof.P256Order
import Verif.Spec.Ecdsa
import Verif.Proof.Bytes
/-
ECDSA over P-256.
-/
namespace ATLS.EcdsaProof
open WeierstrassCurve ATLS.Spec.P256 ATLS.Model ATLS.ModProof ATLS.P256Proof

/-- A point of the group as the code's `Point`. -/
def pt (P : Group) : Point := ⟨(coords P).1, (coords P).2⟩

theorem multiply_eq (P : Group) (k : Int) : Ec.multiply (pt P) k .secp256r1 = .ok (pt (k • P)) := by
  have := toPoint_rep (multiply_rep (fromPoint_rep P) k)
  unfold Ec.multiply
  simp only [Curve.secp256r1]
  rw [← curve_p] at this
  exact congrArg Res.ok this

theorem add_eq (P Q : Group) : Ec.add (pt P) (pt Q) .secp256r1 = .ok (pt (P + Q)) := by
  have := toPoint_rep (add_rep (fromPoint_rep P) (fromPoint_rep Q))
  unfold Ec.add
  simp only [Curve.secp256r1]
  rw [← curve_p] at this
  exact congrArg Res.ok this

theorem g_eq : Curve.secp256r1.g = pt G := by
  unfold pt
  rw [coords_G]
  rfl

theorem coords_range (P : Group) : 0 ≤ (coords P).1 ∧ (coords P).1 < p ∧ 0 ≤ (coords P).2 ∧ (coords P).2 < p := by
  cases P with
  | zero => exact ⟨le_refl _, p_pos, le_refl _, p_pos⟩
  | some x y hn =>
    refine ⟨Int.natCast_nonneg _, ?_, Int.natCast_nonneg _, ?_⟩
    · exact Int.ofNat_lt.mpr (ZMod.val_lt x)
    · exact Int.ofNat_lt.mpr (ZMod.val_lt y)

theorem coords_zero (P : Group) : coords P = (0, 0) ↔ P = 0 := by
  constructor
  · intro h; exact coords_injective h
  · rintro rfl; rfl

/-- The finite points of the group are the solutions of the curve equation. -/
theorem coords_iff (x y : Int) : (∃ P : Group, P ≠ 0 ∧ coords P = (x, y)) ↔
    0 ≤ x ∧ x < p ∧ 0 ≤ y ∧ y < p ∧ y ^ 2 ≡ x ^ 3 - 3 * x + b [ZMOD p] := by
  constructor
  · rintro ⟨P, hP, hc⟩
    have hr := coords_range P
    rw [hc] at hr
    refine ⟨hr.1, hr.2.1, hr.2.2.1, hr.2.2.2, ?_⟩
    cases P with
    | zero => exact absurd rfl hP
    | some u v hn =>
      have he := (equation_iff u v).mp hn.1
      have hu : x = u.val := (congrArg Prod.fst hc).symm
      have hv : y = v.val := (congrArg Prod.snd hc).symm
      rw [← ZMod.intCast_eq_intCast_iff, hu, hv]
      push_cast
      rw [ZMod.natCast_zmod_val, ZMod.natCast_zmod_val]
      exact he
  · rintro ⟨hx0, hx1, hy0, hy1, he⟩
    have he' : curve.Equation (x : ZMod p) (y : ZMod p) := by
      rw [equation_iff]
      have := (ZMod.intCast_eq_intCast_iff _ _ p).mpr he
      push_cast at this
      exact this
    refine ⟨.some _ _ (short.nonsingular he'), ?_, ?_⟩
    · intro h; cases h
    · simp only [coords]
      rw [ZMod.val_intCast, ZMod.val_intCast, Int.emod_eq_of_lt hx0 hx1, Int.emod_eq_of_lt hy0 hy1]

theorem contains_iff (x y : Int) (hx : 0 ≤ x) (hy : 0 ≤ y) :
    Curve.secp256r1.contains ⟨x, y⟩ = true ↔ ∃ P : Group, P ≠ 0 ∧ coords P = (x, y) := by
  rw [coords_iff]
  unfold Curve.contains
  by_cases hlt : x ≥ (p : Int) ∨ y ≥ (p : Int)
  · rw [curve_p, if_pos (by simpa using hlt)]
    constructor
    · intro h; exact absurd h (by simp)
    · rintro ⟨-, h1, -, h2, -⟩; omega
  · rw [curve_p, if_neg (by simpa using hlt)]
    push Not at hlt
    have hab : Curve.secp256r1.equation = .shortWeierstrass := rfl
    have ha : 0 ≤ Curve.secp256r1.a := by decide +kernel
    have hb : 0 ≤ Curve.secp256r1.b := by decide +kernel
    have hbe : Curve.secp256r1.b = (b : Int) := by decide +kernel
    simp only [hab]
    have h1 : 0 ≤ y ^ 2 := by positivity
    have h2 : 0 ≤ x ^ 3 + Curve.secp256r1.a * x + Curve.secp256r1.b := by positivity
    rw [Int.tmod_eq_emod_of_nonneg h1, Int.tmod_eq_emod_of_nonneg h2, beq_iff_eq]
    have hcast : (x ^ 3 + Curve.secp256r1.a * x + Curve.secp256r1.b) ≡ x ^ 3 - 3 * x + b [ZMOD p] := by
      rw [← ZMod.intCast_eq_intCast_iff]
      push_cast
      rw [curve_a, hbe]
      push_cast
      ring
    constructor
    · intro h
      exact ⟨hx, hlt.1, hy, hlt.2, (show _ ≡ _ [ZMOD p] from h).trans hcast⟩
    · rintro ⟨-, -, -, -, h⟩
      exact h.trans hcast.symm

theorem n_pos : (1 : Int) < (n : Int) := by decide +kernel

theorem nn_not_on_curve : ¬ ∃ P : Group, P ≠ 0 ∧ coords P = ((n : Int), (n : Int)) := by
  rw [coords_iff]
  rintro ⟨-, -, -, -, h⟩
  revert h
  unfold Int.ModEq
  decide +kernel

theorem gcd_n {s : Int} (h1 : 1 ≤ s) (h2 : s < n) : Int.gcd s n = 1 := by
  rw [Int.gcd_comm, Int.gcd_eq_natAbs, Int.natAbs_natCast]
  rw [← Nat.Coprime, Nat.Prime.coprime_iff_not_dvd Fact.out]
  intro hd
  have := Nat.le_of_dvd (by omega) hd
  omega

theorem zsmul_congr {k l : Int} (h : k ≡ l [ZMOD n]) (P : Group) : k • P = l • P := by
  rw [← zsmul_mod k P, ← zsmul_mod l P, h]

/-- What `verify` computes, in group terms, once the cheap checks have passed. -/
theorem verify_eq (P : Group) (hP : P ≠ 0) (s r : Int) (hs : 1 ≤ s ∧ s < n) (hr : 1 ≤ r ∧ r < n) (hash : Bytes) (w : Int)
    (hw : w * s ≡ 1 [ZMOD n]) :
    Ecdsa.verify ⟨pt P, .secp256r1⟩ ⟨s, r⟩ hash =
      .ok (decide ((coords (((toIbigBe hash : Int) * w) • G + (r * w) • P)).1 ≡ r [ZMOD n])) := by
  have hin : inv s n ≡ w [ZMOD n] := by
    have h1 := inv_spec s n n_pos (by omega) (gcd_n hs.1 hs.2)
    calc inv s n ≡ inv s n * 1 [ZMOD n] := by rw [mul_one]
      _ ≡ inv s n * (w * s) [ZMOD n] := (hw.symm.mul_left _)
      _ ≡ (inv s n * s) * w [ZMOD n] := by rw [show inv s n * (w * s) = (inv s n * s) * w by ring]
      _ ≡ 1 * w [ZMOD n] := h1.mul_right _
      _ ≡ w [ZMOD n] := by rw [one_mul]
  unfold Ecdsa.verify
  have hc0 : ¬ ((pt P).x = 0 ∧ (pt P).y = 0) := by
    rintro ⟨h1, h2⟩
    exact hP ((coords_zero P).mp (Prod.ext h1 h2))
  have hcn : ¬ ((pt P).x = (n : Int) ∧ (pt P).y = (n : Int)) := by
    rintro ⟨h1, h2⟩
    exact nn_not_on_curve ⟨P, hP, Prod.ext h1 h2⟩
  have hcr := coords_range P
  have hcc : Curve.secp256r1.contains (pt P) = true :=
    (contains_iff _ _ hcr.1 hcr.2.2.1).mpr ⟨P, hP, rfl⟩
  simp only [curve_n]
  rw [if_neg hc0, if_neg hcn, hcc, if_neg (by simp), if_neg (by omega), if_neg (by omega)]
  simp only [g_eq, multiply_eq, add_eq, Res.ok_bind]
  have hn0 : (n : Int) ≠ 0 := by have := n_pos; omega
  have hsum : remEuclid ((toIbigBe hash : Int) * inv s n) n • G + remEuclid (r * inv s n) n • P =
      ((toIbigBe hash : Int) * w) • G + (r * w) • P := by
    rw [remEuclid_eq _ _ hn0, remEuclid_eq _ _ hn0, zsmul_mod, zsmul_mod, zsmul_congr (hin.mul_left _) G,
      zsmul_congr (hin.mul_left _) P]
  rw [hsum, remEuclid_eq _ _ hn0, remEuclid_eq _ _ hn0]
  obtain ⟨R, hR⟩ : ∃ R, R = ((toIbigBe hash : Int) * w) • G + (r * w) • P := ⟨_, rfl⟩
  rw [← hR]
  have hrm : r % (n : Int) = r := Int.emod_eq_of_lt (by omega) hr.2
  have hdec : ((coords R).1 ≡ r [ZMOD n]) ↔ (pt R).x % (n : Int) = r := by
    unfold Int.ModEq; rw [hrm]; rfl
  by_cases hx : (pt R).x % (n : Int) = r
  · rw [if_neg (by omega), if_neg (by simpa using hx), decide_eq_true (hdec.mpr hx)]
  · by_cases h0 : (pt R).x % (n : Int) = 0 ∧ (pt R).y % (n : Int) = 0
    · rw [if_pos h0, decide_eq_false (fun h => hx (hdec.mp h))]
    · rw [if_neg h0, if_pos hx, decide_eq_false (fun h => hx (hdec.mp h))]

end ATLS.EcdsaProof
