import Verif.Proof.Montgomery
import Verif.Spec.Curve25519
import Verif.Proof.Bytes
import Mathlib.FieldTheory.Finite.Basic
/-
The ladder of RFC 7748 computes scalar multiplication on Curve25519.
-/
namespace ATLS.LadderProof
open ATLS.Spec ATLS.MProof ATLS.Spec.Curve25519

theorem natCast_ne_zero {n : ℕ} (h : n % X25519.p ≠ 0) : ((n : ℕ) : ZMod X25519.p) ≠ 0 := by
  intro hh
  apply h
  have : ((n : ℕ) : ZMod X25519.p) = ((0 : ℕ) : ZMod X25519.p) := by rw [hh]; norm_cast
  rw [ZMod.natCast_eq_natCast_iff'] at this
  rw [this]; exact Nat.zero_mod _

theorem mont : Mont curve where
  a₁ := rfl
  a₃ := rfl
  a₄ := rfl
  a₆ := rfl
  two := by
    have := natCast_ne_zero (n := 2) (by decide +kernel)
    push_cast at this; exact this
  plus := by
    have := natCast_ne_zero (n := 486662 + 2) (by decide +kernel)
    push_cast at this; exact this
  minus := by
    have := natCast_ne_zero (n := 486660) (by decide +kernel)
    push_cast at this
    simp only [curve]
    intro hh
    apply this
    linear_combination hh

theorem a24 : 4 * (121665 : ZMod X25519.p) = curve.a₂ - 2 := by
  simp only [curve]; norm_num

/-- The settled state represents m·Q and (m+1)·Q. -/
def Inv (Q : Group) (m : ℕ) (s : X25519.State) : Prop :=
  Rep (X25519.cswap s.swap s.x2 s.x3).1 (X25519.cswap s.swap s.z2 s.z3).1 (m • Q) ∧
  Rep (X25519.cswap s.swap s.x2 s.x3).2 (X25519.cswap s.swap s.z2 s.z3).2 ((m + 1) • Q)

theorem cswap_xor {α : Type} (s t : Bool) (a b : α) :
    X25519.cswap (s ^^ t) a b = X25519.cswap t (X25519.cswap s a b).1 (X25519.cswap s a b).2 := by
  cases s <;> cases t <;> rfl

theorem step_inv {k : ℕ} {x y : ZMod X25519.p} {hn : curve.Nonsingular x y} (hx : x ≠ 0) {m : ℕ} {s : X25519.State}
    (h : Inv (.some x y hn) m s) (t : ℕ) :
    Inv (.some x y hn) (2 * m + (k.testBit t).toNat) (X25519.step k x s t) := by
  obtain ⟨Q, hQ⟩ : ∃ Q : Group, Q = .some x y hn := ⟨_, rfl⟩
  unfold Inv at h ⊢
  rw [← hQ] at h ⊢
  unfold X25519.step
  simp only [cswap_xor]
  obtain ⟨a, ha⟩ : ∃ a, a = (X25519.cswap s.swap s.x2 s.x3).1 := ⟨_, rfl⟩
  obtain ⟨b, hb⟩ : ∃ b, b = (X25519.cswap s.swap s.x2 s.x3).2 := ⟨_, rfl⟩
  obtain ⟨c, hc⟩ : ∃ c, c = (X25519.cswap s.swap s.z2 s.z3).1 := ⟨_, rfl⟩
  obtain ⟨d, hd⟩ : ∃ d, d = (X25519.cswap s.swap s.z2 s.z3).2 := ⟨_, rfl⟩
  rw [← ha, ← hb, ← hc, ← hd] at h ⊢
  obtain ⟨h1, h2⟩ := h
  have hs : (m + 1) • Q = m • Q + .some x y hn := by rw [add_nsmul, one_nsmul, hQ]
  cases hk : k.testBit t with
  | false =>
    simp only [X25519.cswap, Bool.false_eq_true, if_false, Bool.toNat_false, add_zero]
    constructor
    · have := rep_double mont a24 h1 rfl rfl rfl
      rw [two_mul, add_nsmul]
      exact this
    · have := rep_diffadd mont a24 h1 h2 hs hx rfl rfl
      rw [show 2 * m + 1 = m + (m + 1) by ring, add_nsmul]
      exact this
  | true =>
    simp only [X25519.cswap, if_true, Bool.toNat_true]
    constructor
    · have := rep_diffadd mont a24 h1 h2 hs hx rfl rfl
      rw [show 2 * m + 1 = m + (m + 1) by ring, add_nsmul]
      have e3 : ((b - d) * (a + c) + (b + d) * (a - c)) ^ 2 = ((a - c) * (b + d) + (a + c) * (b - d)) ^ 2 := by ring
      have e4 : ((b - d) * (a + c) - (b + d) * (a - c)) ^ 2 = ((a - c) * (b + d) - (a + c) * (b - d)) ^ 2 := by ring
      rw [e3, e4] at this
      exact this
    · have := rep_double mont a24 h2 rfl rfl rfl
      rw [show 2 * m + 1 + 1 = (m + 1) + (m + 1) by ring, add_nsmul]
      exact this

theorem fold_inv {k : ℕ} {x y : ZMod X25519.p} {hn : curve.Nonsingular x y} (hx : x ≠ 0) :
    ∀ (n m : ℕ) (s : X25519.State), Inv (.some x y hn) m s →
    Inv (.some x y hn) (m * 2 ^ n + k % 2 ^ n) ((List.range n).reverse.foldl (X25519.step k x) s) := by
  intro n
  induction n with
  | zero => intro m s h; simpa [Nat.mod_one] using h
  | succ n ih =>
    intro m s h
    rw [List.range_succ, List.reverse_append, List.reverse_singleton, List.singleton_append, List.foldl_cons]
    have := ih _ _ (step_inv (k := k) hx h n)
    rw [Nat.mod_pow_succ, ← Nat.toNat_testBit, add_comm (k % 2 ^ n)]
    have e : m * 2 ^ (n + 1) + (2 ^ n * (k.testBit n).toNat + k % 2 ^ n) = (2 * m + (k.testBit n).toNat) * 2 ^ n + k % 2 ^ n := by
      rw [pow_succ]; ring
    rw [e]
    exact this

theorem rep_u {X Z : ZMod X25519.p} {P : Group} (h : Rep X Z P) : X * Z ^ (X25519.p - 2) = u P := by
  cases P with
  | zero =>
    rw [h.1, zero_pow (by decide +kernel), mul_zero]; rfl
  | some x y hn =>
    obtain ⟨hZ, hX⟩ := h
    have h1 : Z ^ (X25519.p - 1) = 1 := ZMod.pow_card_sub_one_eq_one hZ
    have h2 : X25519.p - 1 = (X25519.p - 2) + 1 := by
      have : 2 ≤ X25519.p := by decide +kernel
      omega
    rw [h2, pow_succ] at h1
    show _ = x
    rw [hX]
    linear_combination x * h1

/-- With u = 0 the ladder returns 0. -/
theorem ladder_zero (k : ℕ) : X25519.ladder k 0 = 0 := by
  have inv : ∀ (is : List ℕ) (s : X25519.State), s.x2 * s.z2 = 0 → s.x3 * s.z3 = 0 →
      (is.foldl (X25519.step k 0) s).x2 * (is.foldl (X25519.step k 0) s).z2 = 0 ∧
      (is.foldl (X25519.step k 0) s).x3 * (is.foldl (X25519.step k 0) s).z3 = 0 := by
    intro is
    induction is with
    | nil => intro s h1 h2; exact ⟨h1, h2⟩
    | cons t is ih =>
      intro s h1 h2
      rw [List.foldl_cons]
      apply ih
      · unfold X25519.step
        cases hs : s.swap ^^ k.testBit t with
        | false =>
          simp only [hs, X25519.cswap, Bool.false_eq_true, if_false]
          have : (s.x2 + s.z2) ^ 2 - (s.x2 - s.z2) ^ 2 = 0 := by linear_combination 4 * h1
          rw [this]; ring
        | true =>
          simp only [hs, X25519.cswap, if_true]
          have : (s.x3 + s.z3) ^ 2 - (s.x3 - s.z3) ^ 2 = 0 := by linear_combination 4 * h2
          rw [this]; ring
      · unfold X25519.step
        simp only [zero_mul, mul_zero]
  unfold X25519.ladder
  obtain ⟨h1, h2⟩ := inv (List.range 255).reverse ⟨1, 0, 0, 1, false⟩ (by simp) (by simp)
  obtain ⟨s, hs⟩ : ∃ s, s = (List.range 255).reverse.foldl (X25519.step k 0) ⟨1, 0, 0, 1, false⟩ := ⟨_, rfl⟩
  rw [← hs] at h1 h2 ⊢
  have fin : ∀ a b : ZMod X25519.p, a * b = 0 → a * b ^ (X25519.p - 2) = 0 := by
    intro a b h
    rcases mul_eq_zero.mp h with h | h
    · rw [h, zero_mul]
    · rw [h, zero_pow (by decide +kernel), mul_zero]
  cases hsw : s.swap with
  | false => simp only [hsw, X25519.cswap, Bool.false_eq_true, if_false]; exact fin _ _ h1
  | true => simp only [hsw, X25519.cswap, if_true]; exact fin _ _ h2

/-- Points with u = 0 form a subgroup. -/
theorem u_zero_smul {Q : Group} (h : u Q = 0) (k : ℕ) : u (k • Q) = 0 := by
  have h2 : Q + Q = 0 := by
    cases Q with
    | zero => exact add_zero _
    | some x y hn =>
      have hx : x = 0 := h
      have he := (mont.equation x y).mp hn.1
      have hy : y = 0 := by
        rw [hx] at he
        have : y ^ 2 = 0 := by linear_combination he
        exact (pow_eq_zero_iff (by norm_num)).mp this
      exact WeierstrassCurve.Affine.Point.add_of_Y_eq rfl (by rw [mont.negY, hy, neg_zero])
  have h3 : k • Q = (k % 2) • Q := by
    conv_lhs => rw [← Nat.div_add_mod k 2, add_nsmul, mul_comm, mul_nsmul', two_nsmul, h2, nsmul_zero, zero_add]
  rw [h3]
  rcases Nat.mod_two_eq_zero_or_one k with hk | hk
  · rw [hk, zero_nsmul]; rfl
  · rw [hk, one_nsmul]; exact h

/-- The ladder on the u coordinate of `Q` gives the u coordinate of `k • Q`. -/
theorem ladder_u (Q : Group) {k : ℕ} (hk : k < 2 ^ 255) : X25519.ladder k (u Q) = u (k • Q) := by
  by_cases hu : u Q = 0
  · rw [hu, ladder_zero, u_zero_smul hu]
  · cases Q with
    | zero => exact absurd rfl hu
    | some x y hn =>
      have hx : x ≠ 0 := hu
      have h0 : Inv (.some x y hn) 0 ⟨1, 0, x, 1, false⟩ := by
        unfold Inv
        rw [zero_nsmul, zero_add, one_nsmul]
        exact ⟨⟨rfl, one_ne_zero⟩, ⟨one_ne_zero, (mul_one x).symm⟩⟩
      have := fold_inv (k := k) hx 255 0 _ h0
      rw [zero_mul, zero_add, Nat.mod_eq_of_lt hk] at this
      unfold Inv at this
      have := rep_u this.1
      have hux : u (.some x y hn) = x := rfl
      unfold X25519.ladder
      rw [← this, hux]

theorem leNat_testBit : ∀ (l : Bytes) (i : Nat), (leNat l).testBit i = (l.getD (i / 8) 0).toNat.testBit (i % 8) := by
  intro l
  induction l with
  | nil => intro i; simp [leNat]
  | cons b bs ih =>
    intro i
    have hb : b.toNat < 2 ^ 8 := b.isLt
    have : leNat (b :: bs) = 2 ^ 8 * leNat bs + b.toNat := by simp only [leNat]; ring
    rw [this, Nat.testBit_two_pow_mul_add _ hb]
    by_cases hi : i < 8
    · rw [if_pos hi, Nat.div_eq_of_lt hi, Nat.mod_eq_of_lt hi]; rfl
    · rw [if_neg hi, ih]
      have h1 : i / 8 = (i - 8) / 8 + 1 := by omega
      have h2 : i % 8 = (i - 8) % 8 := by omega
      rw [h1, h2]; rfl

theorem decodeScalar_lt {k : Bytes} (hk : k.length = 32) : X25519.decodeScalar k < 2 ^ 255 := by
  unfold X25519.decodeScalar
  apply Nat.lt_pow_two_of_testBit
  intro i hi
  rw [leNat_testBit]
  by_cases h : i / 8 = 31
  · rw [h, List.getD_eq_getElem?_getD, List.getElem?_set_self (by simp [hk]), Option.getD_some]
    have h7 : i % 8 = 7 := by omega
    rw [h7]
    have : ∀ b : BitVec 8, ((b &&& 127) ||| 64).toNat.testBit 7 = false := by decide
    exact this _
  · rw [List.getD_eq_getElem?_getD, List.getElem?_eq_none (by simp only [List.length_set, hk]; omega)]
    exact Nat.zero_testBit _

theorem encode_length (v : ZMod X25519.p) : (X25519.encodeU v).length = 32 := leBytes_length 32 _

theorem decode_encode (v : ZMod X25519.p) : X25519.decodeU (X25519.encodeU v) = v := by
  have hlt : v.val < 2 ^ 255 := lt_of_lt_of_le (ZMod.val_lt v) (by decide +kernel)
  have hl : leNat (X25519.encodeU v) = v.val := by
    unfold X25519.encodeU
    rw [leNat_leBytes]
    exact Nat.mod_eq_of_lt (by omega)
  have h31 : ((X25519.encodeU v).getD 31 0).toNat.testBit 7 = false := by
    have := leNat_testBit (X25519.encodeU v) 255
    rw [hl, Nat.testBit_lt_two_pow hlt] at this
    exact this.symm
  have hb : ∀ b : BitVec 8, b.toNat.testBit 7 = false → b &&& 127 = b := by decide
  unfold X25519.decodeU
  rw [hb _ h31]
  have hset : (X25519.encodeU v).set 31 ((X25519.encodeU v).getD 31 0) = X25519.encodeU v := by
    rw [List.getD_eq_getElem?_getD, List.getElem?_eq_getElem (by rw [encode_length]; omega), Option.getD_some]
    exact List.set_getElem_self _
  rw [hset, hl, ZMod.natCast_zmod_val]

/-- The function X25519 on the encoded u coordinate of a point of the curve. -/
theorem x25519_u {k : Bytes} (hk : k.length = 32) (Q : Group) :
    X25519.x25519 k (X25519.encodeU (u Q)) = X25519.encodeU (u (X25519.decodeScalar k • Q)) := by
  unfold X25519.x25519
  rw [decode_encode, ladder_u Q (decodeScalar_lt hk)]

/-- Diffie-Hellman. -/
theorem x25519_comm {a b : Bytes} (ha : a.length = 32) (hb : b.length = 32) (Q : Group) :
    X25519.x25519 a (X25519.x25519 b (X25519.encodeU (u Q))) = X25519.x25519 b (X25519.x25519 a (X25519.encodeU (u Q))) := by
  rw [x25519_u hb, x25519_u ha, x25519_u ha, x25519_u hb, smul_smul, smul_smul, mul_comm]

end ATLS.LadderProof
