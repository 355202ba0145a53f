import Verif.Props.Ec
/-
For every key and every hash there is a nonce that gives a signature whose two numbers have a full 32 bytes.
-/
namespace ATLS.NonceProof
open ATLS.Spec.P256 ATLS.Model ATLS.EcdsaProof ATLS.ModProof ATLS.P256Proof

/-- The round with the nonce `k`, whose point has the x coordinate `R`. -/
theorem round_of (d e : Int) {k R i : Int} {p : Point} (hp : (Ec.multiply Curve.secp256r1.g k .secp256r1 : Res Unit Point) = .ok p) (hR : remEuclid p.x Curve.secp256r1.n = R)
    (hi : inv k Curve.secp256r1.n = i) (hr0 : R ≠ 0) (hs0 : remEuclid ((e + R * d) * i) Curve.secp256r1.n ≠ 0) :
    Ecdsa.signRound ⟨.secp256r1, d⟩ e k = .ok (some ⟨remEuclid ((e + R * d) * i) Curve.secp256r1.n, R⟩) := by
  unfold Ecdsa.signRound
  simp only [hp, Res.ok_bind, hR, hi]
  rw [if_neg hr0, if_neg hs0]

theorem halves {n t i : Int} (hn : 0 < n) (h0 : t * i % n ≠ 0) : t * (n - i) % n = n - t * i % n := by
  have h1 := Int.emod_nonneg (t * i) (by omega : n ≠ 0)
  have h2 := Int.emod_lt_of_pos (t * i) hn
  have h3 : t * (n - i) = (n - t * i % n) + n * (t - 1 - t * i / n) := by
    have := Int.mul_ediv_add_emod (t * i) n
    linear_combination this
  rw [h3, Int.add_mul_emod_self_left, Int.emod_eq_of_lt (by omega) (by omega)]

/-- One of two opposite nonces is good. -/
theorem one_of (d : Int) (hash : Bytes) {k k' R i : Int} {p p' : Point} (hk : 0 ≤ k) (hk' : 0 ≤ k')
    (hp : (Ec.multiply Curve.secp256r1.g k .secp256r1 : Res Unit Point) = .ok p) (hp' : (Ec.multiply Curve.secp256r1.g k' .secp256r1 : Res Unit Point) = .ok p')
    (hR : remEuclid p.x Curve.secp256r1.n = R) (hR' : remEuclid p'.x Curve.secp256r1.n = R)
    (hi : inv k Curve.secp256r1.n = i) (hi' : inv k' Curve.secp256r1.n = n - i) (hr : 2 ^ 248 ≤ R)
    (h0 : ((Spec.beNat hash : Int) + R * d) * i % n ≠ 0) :
    ∃ k sig, 0 ≤ k ∧ Ecdsa.sign [k] ⟨.secp256r1, d⟩ hash = .ok (some sig) ∧ 2 ^ 248 ≤ sig.r ∧ 2 ^ 248 ≤ sig.s := by
  have hn0 : (n : Int) ≠ 0 := by have := n_pos; omega
  have hnpos : (0 : Int) < n := by have := n_pos; omega
  have hbig : (2 : Int) ^ 249 ≤ n := by decide +kernel
  have h1 := Int.emod_nonneg (((Spec.beNat hash : Int) + R * d) * i) hn0
  have h2 := Int.emod_lt_of_pos (((Spec.beNat hash : Int) + R * d) * i) hnpos
  have hsum := halves hnpos h0
  have hr0 : R ≠ 0 := by
    intro h
    rw [h] at hr
    norm_num at hr
  by_cases hc : 2 ^ 248 ≤ ((Spec.beNat hash : Int) + R * d) * i % n
  · refine ⟨k, ⟨((Spec.beNat hash : Int) + R * d) * i % n, R⟩, hk, ?_, hr, hc⟩
    unfold Ecdsa.sign
    rw [toIbigBe_eq, Ecdsa.signLoop, round_of d _ hp hR hi hr0 (by rw [curve_n, remEuclid_eq _ _ hn0]; exact h0), curve_n, remEuclid_eq _ _ hn0]
    rfl
  · refine ⟨k', ⟨((Spec.beNat hash : Int) + R * d) * (n - i) % n, R⟩, hk', ?_, hr, ?_⟩
    · unfold Ecdsa.sign
      rw [toIbigBe_eq, Ecdsa.signLoop, round_of d _ hp' hR' hi' hr0 (by rw [curve_n, remEuclid_eq _ _ hn0, hsum]; omega), curve_n, remEuclid_eq _ _ hn0]
      rfl
    · simp only []
      rw [hsum]
      have e : (2 : Int) ^ 249 = 2 ^ 248 + 2 ^ 248 := by norm_num
      omega

/-- The x coordinates of G and 2G. -/
def x1 : Int := 0x6b17d1f2e12c4247f8bce6e563a440f277037d812deb33a0f4a13945d898c296
def x2 : Int := 0x7cf27b188d034f7e8a52380304b51ac3c08969e277f21b35a60b48fc47669978

/-- For every key and every message there is a nonce with which the signature is made, and both its numbers have 249 to 256 bits. -/
theorem good_nonce (d : Int) (hd : ¬ (n : Int) ∣ d) (hash : Bytes) :
    ∃ k sig, 0 ≤ k ∧ Ecdsa.sign [k] ⟨.secp256r1, d⟩ hash = .ok (some sig) ∧ 2 ^ 248 ≤ sig.r ∧ 2 ^ 248 ≤ sig.s := by
  have hp : Prime (n : Int) := Nat.prime_iff_prime_int.mp Fact.out
  by_cases h1 : ((Spec.beNat hash : Int) + x1 * d) * 1 % n = 0
  · by_cases h2 : ((Spec.beNat hash : Int) + x2 * d) * 0x7fffffff800000007fffffffffffffffde737d56d38bcf4279dce5617e3192a9 % n = 0
    · exfalso
      rw [mul_one] at h1
      have d1 := Int.dvd_of_emod_eq_zero h1
      have d2 := (hp.dvd_mul.mp (Int.dvd_of_emod_eq_zero h2)).resolve_right (by decide +kernel)
      have d3 : (n : Int) ∣ (x2 - x1) * d := by
        have := Int.dvd_sub d2 d1
        rwa [show (Spec.beNat hash : Int) + x2 * d - ((Spec.beNat hash : Int) + x1 * d) = (x2 - x1) * d by ring] at this
      rcases hp.dvd_mul.mp d3 with h | h
      · exact absurd h (by decide +kernel)
      · exact hd h
    · exact one_of d hash (k := 2) (k' := 0xffffffff00000000ffffffffffffffffbce6faada7179e84f3b9cac2fc63254f) (R := x2) (i := 0x7fffffff800000007fffffffffffffffde737d56d38bcf4279dce5617e3192a9) (p := ⟨0x7cf27b188d034f7e8a52380304b51ac3c08969e277f21b35a60b48fc47669978, 0x7775510db8ed040293d9ac69f7430dbba7dade63ce982299e04b79d227873d1⟩)
        (p' := ⟨0x7cf27b188d034f7e8a52380304b51ac3c08969e277f21b35a60b48fc47669978, 0xf888aaee24712fc0d6c26539608bcf244582521ac3167dd661fb4862dd878c2e⟩)
        (by decide) (by decide +kernel) (by decide +kernel) (by decide +kernel) (by decide +kernel) (by decide +kernel) (by decide +kernel)
        (by decide +kernel) (by decide +kernel) h2
  · exact one_of d hash (k := 1) (k' := 0xffffffff00000000ffffffffffffffffbce6faada7179e84f3b9cac2fc632550) (R := x1) (i := 1) (p := ⟨0x6b17d1f2e12c4247f8bce6e563a440f277037d812deb33a0f4a13945d898c296, 0x4fe342e2fe1a7f9b8ee7eb4a7c0f9e162bce33576b315ececbb6406837bf51f5⟩)
      (p' := ⟨0x6b17d1f2e12c4247f8bce6e563a440f277037d812deb33a0f4a13945d898c296, 0xb01cbd1c01e58065711814b583f061e9d431cca994cea1313449bf97c840ae0a⟩)
      (by decide) (by decide +kernel) (by decide +kernel) (by decide +kernel) (by decide +kernel) (by decide +kernel) (by decide +kernel)
      (by decide +kernel) (by decide +kernel) h1

end ATLS.NonceProof
