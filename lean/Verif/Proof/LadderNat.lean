import Verif.Proof.Ladder
import Verif.Proof.Primes
/-
The X25519 function on natural numbers, for evaluation by the kernel.
-/
namespace ATLS.LadderProof
open ATLS.Spec

/-- Subtraction modulo the prime. -/
def subMod (a b : ℕ) : ℕ := (a + (X25519.p - b % X25519.p)) % X25519.p

theorem cast_mod (a : ℕ) : ((a % X25519.p : ℕ) : ZMod X25519.p) = a := ZMod.natCast_mod a X25519.p

theorem cast_sub (a b : ℕ) : ((subMod a b : ℕ) : ZMod X25519.p) = a - b := by
  unfold subMod
  have h : b % X25519.p ≤ X25519.p := (Nat.mod_lt b (by decide +kernel)).le
  rw [cast_mod]
  push_cast [Nat.cast_sub h]
  rw [cast_mod, ZMod.natCast_self]
  ring

/-- The ladder state on natural numbers. -/
structure NState where
  x2 : ℕ
  z2 : ℕ
  x3 : ℕ
  z3 : ℕ
  swap : Bool

/-- The ladder step on natural numbers. -/
def nstep (k x1 : ℕ) (s : NState) (t : ℕ) : NState :=
  let kt := k.testBit t
  match X25519.cswap (s.swap ^^ kt) s.x2 s.x3, X25519.cswap (s.swap ^^ kt) s.z2 s.z3 with
  | (x2, x3), (z2, z3) =>
    let A := x2 + z2
    let AA := A ^ 2 % X25519.p
    let B := subMod x2 z2
    let BB := B ^ 2 % X25519.p
    let E := subMod AA BB
    let C := x3 + z3
    let D := subMod x3 z3
    let DA := D * A % X25519.p
    let CB := C * B % X25519.p
    { x3 := (DA + CB) ^ 2 % X25519.p, z3 := x1 * subMod DA CB ^ 2 % X25519.p, x2 := AA * BB % X25519.p,
      z2 := E * (AA + 121665 * E) % X25519.p, swap := kt }

/-- Reduction to field elements. -/
def NState.cast (s : NState) : X25519.State := ⟨s.x2, s.z2, s.x3, s.z3, s.swap⟩

theorem nstep_cast (k x1 : ℕ) (s : NState) (t : ℕ) : (nstep k x1 s t).cast = X25519.step k x1 s.cast t := by
  unfold nstep X25519.step NState.cast
  cases hs : s.swap ^^ k.testBit t <;>
    simp only [hs, X25519.cswap, Bool.false_eq_true, if_false, if_true, cast_mod, cast_sub, Nat.cast_mul, Nat.cast_pow, Nat.cast_add,
      Nat.cast_ofNat]

theorem nfold_cast (k x1 : ℕ) : ∀ (is : List ℕ) (s : NState),
    (is.foldl (nstep k x1) s).cast = is.foldl (X25519.step k x1) s.cast := by
  intro is
  induction is with
  | nil => intro s; rfl
  | cons t is ih => intro s; rw [List.foldl_cons, List.foldl_cons, ih, nstep_cast]

/-- The ladder on natural numbers. -/
def nladder (k x1 : ℕ) : ℕ :=
  let s := (List.range 255).reverse.foldl (nstep k x1) ⟨1, 0, x1, 1, false⟩
  (X25519.cswap s.swap s.x2 s.x3).1 * Primes.powMod (X25519.cswap s.swap s.z2 s.z3).1 (X25519.p - 2) X25519.p % X25519.p

theorem nladder_eq (k x1 : ℕ) : X25519.ladder k (x1 : ZMod X25519.p) = ((nladder k x1 : ℕ) : ZMod X25519.p) := by
  unfold nladder X25519.ladder
  have h := nfold_cast k x1 (List.range 255).reverse ⟨1, 0, x1, 1, false⟩
  have h0 : (NState.mk 1 0 x1 1 false).cast = ⟨1, 0, x1, 1, false⟩ := by
    unfold NState.cast; simp
  rw [h0] at h
  rw [← h]
  obtain ⟨s, hs⟩ : ∃ s, s = (List.range 255).reverse.foldl (nstep k x1) ⟨1, 0, x1, 1, false⟩ := ⟨_, rfl⟩
  rw [← hs]
  simp only []
  rw [Primes.powMod_spec _ _ _ (by decide +kernel), cast_mod, Nat.cast_mul, cast_mod, Nat.cast_pow]
  unfold NState.cast
  cases hsw : s.swap <;> simp only [hsw, X25519.cswap, Bool.false_eq_true, if_false, if_true]

/-- X25519 by computation on natural numbers. -/
def nx25519 (k u : Bytes) : Bytes :=
  leBytes 32 (nladder (leNat ((k.set 0 (k.getD 0 0 &&& 248)).set 31 ((k.getD 31 0 &&& 127) ||| 64)))
    (leNat (u.set 31 (u.getD 31 0 &&& 127))))

theorem nx25519_eq (k u : Bytes) : X25519.x25519 k u = nx25519 k u := by
  unfold X25519.x25519 nx25519 X25519.decodeU X25519.encodeU
  rw [nladder_eq, ZMod.val_natCast]
  have : ∀ a b, nladder a b % X25519.p = nladder a b := by
    intro a b
    unfold nladder
    exact Nat.mod_mod _ _
  rw [this]
  rfl

end ATLS.LadderProof

namespace ATLS.LadderProof
open ATLS.Spec ATLS.Spec.Curve25519 ATLS.MProof

/-- The order of the base point. -/
def ell : ℕ := 2 ^ 252 + 27742317777372353535851937790883648493

theorem ell_prime : ell.Prime := Primes.n25519

theorem nine_ne : (9 : ZMod X25519.p) ≠ 0 := by
  have := natCast_ne_zero (n := 9) (by decide +kernel)
  push_cast at this; exact this

theorem rep_zero {X Z : ZMod X25519.p} {P : Group} (h : Rep X Z P) (hz : Z = 0) : P = 0 := by
  cases P with
  | zero => rfl
  | some x y hn => exact absurd hz h.1

/-- The z coordinate after the ladder on the base point. -/
def zAt (k : ℕ) : ℕ :=
  let s := (List.range 255).reverse.foldl (nstep k 9) ⟨1, 0, 9, 1, false⟩
  (X25519.cswap s.swap s.z2 s.z3).1

theorem smul_zero_of {k : ℕ} (hk : k < 2 ^ 255) (hz : zAt k = 0) :
    k • G = 0 := by
  have h0 : Inv G 0 ⟨1, 0, 9, 1, false⟩ := by
    unfold Inv
    rw [zero_nsmul, zero_add, one_nsmul]
    exact ⟨⟨rfl, one_ne_zero⟩, ⟨one_ne_zero, (mul_one _).symm⟩⟩
  have h := fold_inv (k := k) (hn := base_nonsingular) nine_ne 255 0 _ h0
  have hG : WeierstrassCurve.Affine.Point.some _ _ base_nonsingular = G := rfl
  rw [hG, zero_mul, zero_add, Nat.mod_eq_of_lt hk] at h
  have hc := nfold_cast k 9 (List.range 255).reverse ⟨1, 0, 9, 1, false⟩
  have h1 : (NState.mk 1 0 9 1 false).cast = ⟨1, 0, 9, 1, false⟩ := by
    unfold NState.cast; simp
  rw [h1, Nat.cast_ofNat] at hc
  rw [← hc] at h
  obtain ⟨s, hs⟩ : ∃ s, s = (List.range 255).reverse.foldl (nstep k 9) ⟨1, 0, 9, 1, false⟩ := ⟨_, rfl⟩
  unfold zAt at hz
  simp only [] at hz
  rw [← hs] at hz
  rw [← hs] at h
  unfold Inv at h
  obtain ⟨hr, -⟩ := h
  have hz' : (X25519.cswap s.cast.swap s.cast.z2 s.cast.z3).1 = 0 := by
    unfold NState.cast
    simp only []
    unfold X25519.cswap at hz ⊢
    cases hsw : s.swap <;> rw [hsw] at hz <;> simp only [Bool.false_eq_true, if_false, if_true] at hz ⊢ <;> rw [hz] <;>
      exact Nat.cast_zero
  exact rep_zero hr hz'

theorem ell_smul : ell • G = 0 := by
  have h1 : ell < 2 ^ 255 := by decide +kernel
  have h2 : zAt ell = 0 := by decide +kernel
  exact smul_zero_of h1 h2

theorem G_ne : G ≠ 0 := by intro h; cases h

/-- Multiples of the base point that are infinity. -/
theorem smul_eq_zero {m : ℕ} (h : m • G = 0) : ell ∣ m := by
  have h1 : addOrderOf G ∣ ell := addOrderOf_dvd_of_nsmul_eq_zero ell_smul
  have h2 : addOrderOf G = ell := by
    rcases (Nat.dvd_prime ell_prime).mp h1 with h | h
    · exact absurd (AddMonoid.addOrderOf_eq_one_iff.mp h) G_ne
    · exact h
  rw [← h2]
  exact addOrderOf_dvd_of_nsmul_eq_zero h

/-- A multiple of the base point with u = 0 is infinity. -/
theorem u_smul_eq_zero {m : ℕ} (h : u (m • G) = 0) : ell ∣ m := by
  have h2 : m • G + m • G = 0 := by
    obtain ⟨Q, hQ⟩ : ∃ Q, Q = m • G := ⟨_, rfl⟩
    rw [← hQ] at h ⊢
    cases Q with
    | zero => exact add_zero _
    | some x y hn =>
      have hx : x = 0 := h
      have he := (mont.equation x y).mp hn.1
      have hy : y = 0 := by
        rw [hx] at he
        have : y ^ 2 = 0 := by linear_combination he
        exact (pow_eq_zero_iff (by norm_num)).mp this
      exact WeierstrassCurve.Affine.Point.add_of_Y_eq rfl (by rw [mont.negY, hy, neg_zero])
  rw [← add_nsmul, ← two_mul] at h2
  rcases (Nat.Prime.dvd_mul ell_prime).mp (smul_eq_zero h2) with h | h
  · exact absurd (Nat.le_of_dvd (by norm_num) h) (by decide +kernel)
  · exact h

/-- Clamped scalars are not multiples of the order. -/
theorem clamped_not_dvd {k : Bytes} (hk : k.length = 32) : ¬ ell ∣ X25519.decodeScalar k := by
  intro hd
  have hlt := decodeScalar_lt hk
  have h8 : X25519.decodeScalar k % 8 = 0 := by
    apply Nat.eq_of_testBit_eq
    intro i
    rw [show 8 = 2 ^ 3 by norm_num, Nat.testBit_mod_two_pow, Nat.zero_testBit]
    by_cases hi : i < 3
    · unfold X25519.decodeScalar
      rw [leNat_testBit, Nat.div_eq_of_lt (by omega), Nat.mod_eq_of_lt (by omega), List.getD_eq_getElem?_getD,
        List.getElem?_set_ne (by norm_num), List.getElem?_set_self (by omega), Option.getD_some]
      have : ∀ b : BitVec 8, ∀ j < 3, (b &&& 248).toNat.testBit j = false := by decide
      rw [this _ i hi, Bool.and_false]
    · simp [hi]
  have h254 : X25519.decodeScalar k ≠ 0 := by
    intro h0
    have hb : (X25519.decodeScalar k).testBit 254 = true := by
      unfold X25519.decodeScalar
      rw [leNat_testBit, show 254 / 8 = 31 by norm_num, show 254 % 8 = 6 by norm_num, List.getD_eq_getElem?_getD,
        List.getElem?_set_self (by simp [hk]), Option.getD_some]
      have : ∀ b : BitVec 8, ((b &&& 127) ||| 64).toNat.testBit 6 = true := by decide
      exact this _
    rw [h0, Nat.zero_testBit] at hb
    exact absurd hb (by decide)
  obtain ⟨m, hm⟩ : 8 ∣ X25519.decodeScalar k := Nat.dvd_of_mod_eq_zero h8
  rw [hm] at hd hlt h254
  rcases (Nat.Prime.dvd_mul ell_prime).mp hd with h | h
  · exact absurd (Nat.le_of_dvd (by norm_num) h) (by decide +kernel)
  · have h1 := Nat.le_of_dvd (by omega) h
    have h2 : 2 ^ 252 ≤ ell := by decide +kernel
    omega

end ATLS.LadderProof
