import Verif.Proof.Ecdsa
/-
C27-C30: modular arithmetic, P-256 and ECDSA.
-/
namespace ATLS
open ATLS.Spec.P256 ATLS.Model ATLS.EcdsaProof ATLS.ModProof ATLS.P256Proof

/-! ### C27 -/

/-- C27: for every modulus above one and every non-negative argument coprime to it, the inverse lies in [0, n) and times the
argument is one modulo n; the remainder is the Euclidean one for every integer and every non-zero modulus. -/
theorem C27_modular :
    (∀ x n : Int, 1 < n → 0 ≤ x → Int.gcd x n = 1 → 0 ≤ inv x n ∧ inv x n < n ∧ (x * inv x n) % n = 1) ∧
    (∀ x v : Int, v ≠ 0 → 0 ≤ remEuclid x v ∧ remEuclid x v < |v| ∧ ∃ q, x = q * v + remEuclid x v) := by
  constructor
  · intro x n hn hx hg
    have h := inv_spec x n hn hx hg
    refine ⟨(inv_range x n hn).1, (inv_range x n hn).2, ?_⟩
    rw [mul_comm]
    unfold Int.ModEq at h
    rwa [Int.emod_eq_of_lt (by omega : (0 : Int) ≤ 1) hn] at h
  · intro x v hv
    rw [remEuclid_eq x v hv]
    refine ⟨Int.emod_nonneg _ hv, Int.emod_lt_abs _ hv, x / v, ?_⟩
    rw [mul_comm]
    exact (Int.mul_ediv_add_emod x v).symm

example : (1 < (11 : Int) ∧ (0 : Int) ≤ 1005 ∧ Int.gcd 1005 11 = 1) ∧ inv 1005 11 = 3 ∧ remEuclid (-12) 11 = 10 ∧
    remEuclid (-12) (-11) = 10 := by decide +kernel

/-- Outside the stated domain the inverse is wrong: for a negative argument the loop does not run. -/
example : inv (-3) 11 = 1 := by decide +kernel

/-! ### C28 -/

/-- C28: point multiplication and point addition compute the group operations of P-256, for every point of the curve
(including infinity, shown as (0,0)) and every integer scalar, however large or negative. -/
theorem C28_group (P Q : Group) (k : Int) :
    Ec.multiply ⟨(coords P).1, (coords P).2⟩ k .secp256r1 = .ok ⟨(coords (k • P)).1, (coords (k • P)).2⟩ ∧
    Ec.add ⟨(coords P).1, (coords P).2⟩ ⟨(coords Q).1, (coords Q).2⟩ .secp256r1 =
      .ok ⟨(coords (P + Q)).1, (coords (P + Q)).2⟩ :=
  ⟨multiply_eq P k, add_eq P Q⟩

/-- The specification's coordinates are what the English says: the finite points of the group are exactly the pairs in
[0, p)² on y² = x³ - 3x + b, and distinct points have distinct coordinates. -/
theorem C28_points : Function.Injective coords ∧ coords 0 = (0, 0) ∧
    (∀ x y : Int, (∃ P : Group, P ≠ 0 ∧ coords P = (x, y)) ↔
      0 ≤ x ∧ x < p ∧ 0 ≤ y ∧ y < p ∧ y ^ 2 ≡ x ^ 3 - 3 * x + b [ZMOD p]) :=
  ⟨coords_injective, rfl, coords_iff⟩

/-- The group has prime order n. -/
theorem C28_order : Nat.card Group = n ∧ n.Prime := ⟨card_eq, Fact.out⟩

/-- A scalar above the group order, on the base point: (n + 1) G = G. -/
example : Ec.multiply ⟨(coords G).1, (coords G).2⟩ ((n : Int) + 1) .secp256r1 = .ok Curve.secp256r1.g := by
  rw [(C28_group G 0 _).1, add_zsmul, one_zsmul, natCast_zsmul, n_smul, zero_add]
  rw [g_eq]; rfl

example : coords G = (Curve.secp256r1.g.x, Curve.secp256r1.g.y) ∧
    Ec.multiply Curve.secp256r1.g 2 .secp256r1 = Ec.add Curve.secp256r1.g Curve.secp256r1.g .secp256r1 := by
  refine ⟨by rw [g_eq]; rfl, by decide +kernel⟩

/-! ### C30 -/

/-- C30: for every public key with non-negative coordinates (keys are read from unsigned bytes), every pair of integers and
every hash, verification answers without a panic, and says yes exactly when FIPS 186-4 does, `e` being the hash as an integer. -/
theorem C30_verify (x y s r : Int) (hx : 0 ≤ x) (hy : 0 ≤ y) (hash : Bytes) :
    ∃ ans, Ecdsa.verify ⟨⟨x, y⟩, .secp256r1⟩ ⟨s, r⟩ hash = .ok ans ∧
      (ans = true ↔ Spec.Ecdsa.Accepts (x, y) r s (Spec.beNat hash : Int)) := by
  by_cases hP : ∃ P : Group, P ≠ 0 ∧ coords P = (x, y)
  · obtain ⟨P, hP, hc⟩ := hP
    have hpt : (⟨x, y⟩ : Point) = pt P := by unfold pt; rw [hc]
    by_cases hs : 1 ≤ s ∧ s < n
    · by_cases hr : 1 ≤ r ∧ r < n
      · rw [hpt, verify_eq P hP s r hs hr hash (inv s n) (inv_spec s n n_pos (by omega) (gcd_n hs.1 hs.2))]
        refine ⟨_, rfl, ?_⟩
        rw [decide_eq_true_eq, toIbigBe_eq]
        constructor
        · intro h
          refine ⟨P, hP, hc, hr.1, hr.2, hs.1, hs.2, inv s n, inv_spec s n n_pos (by omega) (gcd_n hs.1 hs.2), ?_, h⟩
          intro h0
          rw [h0] at h
          have h' : (0 : Int) ≡ r [ZMOD n] := h
          unfold Int.ModEq at h'
          rw [Int.zero_emod, Int.emod_eq_of_lt (by omega) hr.2] at h'
          omega
        · rintro ⟨P', hP', hc', -, -, -, -, w, hw, -, h⟩
          have : P' = P := coords_injective (hc'.trans hc.symm)
          subst this
          have h1 : w ≡ inv s n [ZMOD n] := by
            have hi := inv_spec s n n_pos (by omega) (gcd_n hs.1 hs.2)
            calc w ≡ w * 1 [ZMOD n] := by rw [mul_one]
              _ ≡ w * (inv s n * s) [ZMOD n] := hi.symm.mul_left _
              _ ≡ (w * s) * inv s n [ZMOD n] := by rw [show w * (inv s n * s) = (w * s) * inv s n by ring]
              _ ≡ 1 * inv s n [ZMOD n] := hw.mul_right _
              _ ≡ inv s n [ZMOD n] := by rw [one_mul]
          rwa [zsmul_congr (h1.mul_left _) G, zsmul_congr (h1.mul_left _) P'] at h
      · refine ⟨false, ?_, by simp; rintro ⟨_, _, _, h1, h2, _⟩; exact hr ⟨h1, h2⟩⟩
        unfold Ecdsa.verify
        simp only [curve_n]
        split_ifs <;> first | rfl | omega
    · refine ⟨false, ?_, by simp; rintro ⟨_, _, _, _, _, h1, h2, _⟩; exact hs ⟨h1, h2⟩⟩
      unfold Ecdsa.verify
      simp only [curve_n]
      split_ifs <;> first | rfl | omega
  · refine ⟨false, ?_, by simp; rintro ⟨P, h1, h2, _⟩; exact hP ⟨P, h1, h2⟩⟩
    have hcc : Curve.secp256r1.contains ⟨x, y⟩ = false := by
      rw [Bool.eq_false_iff, Ne, contains_iff x y hx hy]; exact hP
    unfold Ecdsa.verify
    simp only [hcc]
    split_ifs <;> first | rfl | simp_all

/-- C30 for the hashes the code uses: up to 32 bytes, FIPS 186-4's integer (the leftmost 256 bits) is the whole hash. -/
theorem C30_fips (x y s r : Int) (hx : 0 ≤ x) (hy : 0 ≤ y) (hash : Bytes) (hl : hash.length ≤ 32) :
    ∃ ans, Ecdsa.verify ⟨⟨x, y⟩, .secp256r1⟩ ⟨s, r⟩ hash = .ok ans ∧
      (ans = true ↔ Spec.Ecdsa.Accepts (x, y) r s (Spec.Ecdsa.hashInt hash)) := by
  have : Spec.Ecdsa.hashInt hash = (Spec.beNat hash : Int) := by
    unfold Spec.Ecdsa.hashInt
    rw [List.take_of_length_le hl]
  rw [this]
  exact C30_verify x y s r hx hy hash

/-- Out-of-range or zero components are refused whatever the key and the hash. -/
theorem C30_range (pk : PublicKey) (hc : pk.curve = .secp256r1) (s r : Int) (hash : Bytes)
    (h : s ≤ 0 ∨ n ≤ s ∨ r ≤ 0 ∨ n ≤ r) : Ecdsa.verify pk ⟨s, r⟩ hash = .ok false := by
  unfold Ecdsa.verify
  simp only [hc, curve_n]
  split_ifs <;> first | rfl | omega

/-- Both answers occur: key d = 1, nonce k = 1, hash zero gives r = s = Gx mod n. -/
example : Ecdsa.verify ⟨Curve.secp256r1.g, .secp256r1⟩ ⟨gx % n, gx % n⟩ (zeros 32) = .ok true ∧
    Ecdsa.verify ⟨Curve.secp256r1.g, .secp256r1⟩ ⟨gx % n, gx % n⟩ (zeros 31 ++ [1]) = .ok false := by
  decide +kernel

/-- FIPS truncation matters beyond 32 bytes, where the code keeps all bits: the same signature on a longer hash with the same
leftmost 256 bits is refused. (The code only passes SHA-256 values.) -/
example : Ecdsa.verify ⟨Curve.secp256r1.g, .secp256r1⟩ ⟨gx % n, gx % n⟩ (zeros 32 ++ [1]) = .ok false ∧
    Spec.Ecdsa.hashInt (zeros 32 ++ [1]) = Spec.Ecdsa.hashInt (zeros 32) := by
  decide +kernel

/-! ### C29 -/

/-- C29: whatever signing returns verifies. For every private key that is not a multiple of the group order (in particular
every key in [1, n)), every hash, and every stream of nonces (non-negative, as `between` draws them), the signature is accepted
by the public key of that private key, and r, s are in [1, n). -/
theorem C29_sign_verify (d : Int) (hd : ¬ (n : Int) ∣ d) (hash : Bytes) (nonces : List Int) (hk : ∀ k ∈ nonces, 0 ≤ k)
    (sig : Signature) (hs : Ecdsa.sign nonces ⟨.secp256r1, d⟩ hash = .ok (some sig)) :
    ∃ pk, (⟨.secp256r1, d⟩ : PrivateKey).getPublicKey = .ok pk ∧ Ecdsa.verify pk sig hash = .ok true ∧
      1 ≤ sig.r ∧ sig.r < n ∧ 1 ≤ sig.s ∧ sig.s < n := by
  have hn0 : (n : Int) ≠ 0 := by have := n_pos; omega
  have hnpos : (0 : Int) < n := by have := n_pos; omega
  have hpk : (⟨.secp256r1, d⟩ : PrivateKey).getPublicKey = .ok ⟨pt (d • G), .secp256r1⟩ := by
    unfold PrivateKey.getPublicKey
    simp only [g_eq, multiply_eq, Res.ok_bind]
  refine ⟨_, hpk, ?_⟩
  have hQ : d • G ≠ 0 := fun h => hd ((zsmul_eq_zero d G G_ne_zero).mp h)
  unfold Ecdsa.sign at hs
  rw [toIbigBe_eq] at hs
  obtain ⟨e, he⟩ : ∃ e, e = (Spec.beNat hash : Int) := ⟨_, rfl⟩
  rw [← he] at hs
  induction nonces with
  | nil => simp [Ecdsa.signLoop] at hs
  | cons k ks ih =>
    rw [Ecdsa.signLoop] at hs
    have hround : ∀ o, Ecdsa.signRound ⟨.secp256r1, d⟩ e k = .ok o → (o = none ∨ ∃ sg, o = some sg ∧
        Ecdsa.verify ⟨pt (d • G), .secp256r1⟩ sg hash = .ok true ∧ 1 ≤ sg.r ∧ sg.r < n ∧ 1 ≤ sg.s ∧ sg.s < n) := by
      intro o ho
      unfold Ecdsa.signRound at ho
      simp only [g_eq, multiply_eq, Res.ok_bind, curve_n, remEuclid_eq _ _ hn0] at ho
      obtain ⟨r, hrdef⟩ : ∃ r, r = (pt (k • G)).x % (n : Int) := ⟨_, rfl⟩
      obtain ⟨s, hsdef⟩ : ∃ s, s = (e + r * d) * inv k n % (n : Int) := ⟨_, rfl⟩
      rw [← hrdef, ← hsdef] at ho
      by_cases hr0 : r = 0
      · rw [if_pos hr0] at ho
        exact Or.inl (Res.ok.inj ho).symm
      rw [if_neg hr0] at ho
      by_cases hs0 : s = 0
      · rw [if_pos hs0] at ho
        exact Or.inl (Res.ok.inj ho).symm
      rw [if_neg hs0] at ho
      refine Or.inr ⟨⟨s, r⟩, (Res.ok.inj ho).symm, ?_⟩
      have hrr : 1 ≤ r ∧ r < n := by
        have h1 := Int.emod_nonneg (pt (k • G)).x hn0
        have h2 := Int.emod_lt_of_pos (pt (k • G)).x hnpos
        omega
      have hss : 1 ≤ s ∧ s < n := by
        have h1 := Int.emod_nonneg ((e + r * d) * inv k n) hn0
        have h2 := Int.emod_lt_of_pos ((e + r * d) * inv k n) hnpos
        omega
      have hknd : ¬ (n : Int) ∣ k := by
        intro hdv
        apply hr0
        rw [hrdef, (zsmul_eq_zero k G G_ne_zero).mpr hdv]
        rfl
      have hkg : Int.gcd k n = 1 := by
        rw [Int.gcd_comm, Int.gcd_eq_natAbs, Int.natAbs_natCast, ← Nat.Coprime, Nat.Prime.coprime_iff_not_dvd Fact.out]
        intro h
        exact hknd (Int.natCast_dvd.mpr h)
      have hki := inv_spec k n n_pos (hk k (by simp)) hkg
      have hsi := inv_spec s n n_pos (by omega) (gcd_n hss.1 hss.2)
      refine ⟨?_, hrr.1, hrr.2, hss.1, hss.2⟩
      rw [verify_eq (d • G) hQ s r hss hrr hash (inv s n) hsi, toIbigBe_eq, ← he]
      congr 1
      rw [decide_eq_true_eq, ← mul_zsmul, ← add_zsmul]
      have hkk : e * inv s n + d * (r * inv s n) ≡ k [ZMOD n] := by
        -- s k ≡ e + r d, hence (e + r d) / s ≡ k
        have h1 : s * k ≡ e + r * d [ZMOD n] := by
          calc s * k ≡ ((e + r * d) * inv k n) * k [ZMOD n] := by
                rw [hsdef]; exact (Int.mod_modEq _ _).mul_right _
            _ ≡ (e + r * d) * (inv k n * k) [ZMOD n] := by rw [mul_assoc]
            _ ≡ (e + r * d) * 1 [ZMOD n] := hki.mul_left _
            _ ≡ e + r * d [ZMOD n] := by rw [mul_one]
        calc e * inv s n + d * (r * inv s n) ≡ (e + r * d) * inv s n [ZMOD n] := by
              rw [show e * inv s n + d * (r * inv s n) = (e + r * d) * inv s n by ring]
          _ ≡ (s * k) * inv s n [ZMOD n] := h1.symm.mul_right _
          _ ≡ (inv s n * s) * k [ZMOD n] := by rw [show (s * k) * inv s n = (inv s n * s) * k by ring]
          _ ≡ 1 * k [ZMOD n] := hsi.mul_right _
          _ ≡ k [ZMOD n] := by rw [one_mul]
      rw [show d * (r * inv s n) = r * inv s n * d by ring] at hkk
      rw [zsmul_congr hkk G, hrdef]
      exact (Int.mod_modEq _ _).symm
    rw [Res.bind_eq_ok] at hs
    obtain ⟨o, ho, hrest⟩ := hs
    rcases hround o ho with h | ⟨sg, h, hv⟩
    · subst h
      exact ih (fun k hk' => hk k (by simp [hk'])) hrest
    · subst h
      simp only [Res.ok.injEq, Option.some.injEq] at hrest
      subst hrest
      exact hv

/-- A nonce divisible by n (here n itself) is retried, the next one signs. -/
example : ¬ (n : Int) ∣ 0x4d5ecf8a ∧ (∀ k ∈ [(n : Int), 12345], 0 ≤ k) ∧
    (match Ecdsa.sign [(n : Int), 12345] ⟨.secp256r1, 0x4d5ecf8a⟩ (zeros 31 ++ [7]) with
      | .ok (some _) => true | _ => false) = true := by
  decide +kernel

/-- Signing stops: it never panics, and each nonce either signs or is skipped; a nonce is skipped only when r or s is zero. -/
theorem C29_sign_skips (d : Int) (hash : Bytes) (nonces : List Int) :
    (∃ o, Ecdsa.sign nonces ⟨.secp256r1, d⟩ hash = .ok o) ∧
    (Ecdsa.sign nonces ⟨.secp256r1, d⟩ hash = .ok none → ∀ k ∈ nonces,
      (coords (k • G)).1 % n = 0 ∨ (((Spec.beNat hash : Int) + (coords (k • G)).1 % n * d) * inv k n) % n = 0) := by
  have hn0 : (n : Int) ≠ 0 := by have := n_pos; omega
  unfold Ecdsa.sign
  rw [toIbigBe_eq]
  have hround : ∀ k, ∃ o, Ecdsa.signRound ⟨.secp256r1, d⟩ (Spec.beNat hash : Int) k = .ok o ∧ (o = none →
      ((coords (k • G)).1 % n = 0 ∨ (((Spec.beNat hash : Int) + (coords (k • G)).1 % n * d) * inv k n) % n = 0)) := by
    intro k
    unfold Ecdsa.signRound
    simp only [g_eq, multiply_eq, Res.ok_bind, curve_n, remEuclid_eq _ _ hn0]
    by_cases h1 : (pt (k • G)).x % (n : Int) = 0
    · rw [if_pos h1]; exact ⟨_, rfl, fun _ => Or.inl h1⟩
    rw [if_neg h1]
    by_cases h2 : ((Spec.beNat hash : Int) + (pt (k • G)).x % (n : Int) * d) * inv k n % (n : Int) = 0
    · rw [if_pos h2]; exact ⟨_, rfl, fun _ => Or.inr h2⟩
    rw [if_neg h2]; exact ⟨_, rfl, fun h => by cases h⟩
  induction nonces with
  | nil => exact ⟨⟨none, rfl⟩, by simp⟩
  | cons k ks ih =>
    rw [Ecdsa.signLoop]
    obtain ⟨o, ho, hsk⟩ := hround k
    rw [ho, Res.ok_bind]
    cases o with
    | some sg => exact ⟨⟨_, rfl⟩, fun h => by simp at h⟩
    | none =>
      refine ⟨ih.1, fun h => ?_⟩
      intro k' hk'
      rcases List.mem_cons.mp hk' with rfl | hk'
      · exact hsk rfl
      · exact ih.2 h k' hk'

end ATLS
