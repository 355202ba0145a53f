import Verif.Basic
/-
Binary extension fields as bit vectors: `mulG R a b` is the sum of `b·x^i` over the set bits `i` of `a`, where multiplication by `x`
shifts left and reduces with `R`. It is bilinear, commutative and associative. Used for AES (w = 8) and GHASH (w = 128).
-/
namespace ATLS.Gf

variable {w : Nat}

/-- multiplication by x -/
def xt (R : BitVec w) (a : BitVec w) : BitVec w := if a.msb then (a <<< 1) ^^^ R else a <<< 1

theorem shiftLeft_xor (a b : BitVec w) (n : Nat) : (a ^^^ b) <<< n = (a <<< n) ^^^ (b <<< n) := by
  ext i h; simp; by_cases hh : i < n <;> simp [hh]

theorem xt_xor (R a b : BitVec w) : xt R (a ^^^ b) = xt R a ^^^ xt R b := by
  unfold xt
  rw [BitVec.msb_xor, shiftLeft_xor]
  cases ha : a.msb <;> cases hb : b.msb <;> simp only [Bool.xor_false, Bool.xor_true, Bool.not_true, Bool.not_false,
    if_true, if_false, Bool.false_eq_true]
  · rw [BitVec.xor_assoc]
  · rw [BitVec.xor_assoc, BitVec.xor_comm _ R, BitVec.xor_assoc]
  · have : a <<< 1 ^^^ R ^^^ (b <<< 1 ^^^ R) = a <<< 1 ^^^ b <<< 1 ^^^ (R ^^^ R) := by
      ext i h; simp only [BitVec.getElem_xor]; cases (a <<< 1)[i] <;> cases (b <<< 1)[i] <;> cases R[i] <;> rfl
    rw [this, BitVec.xor_self, BitVec.xor_zero]

@[simp] theorem xt_zero (R : BitVec w) : xt R 0#w = 0#w := by
  unfold xt; simp [BitVec.msb_zero]

/-- `b · x^i` -/
def xpow (R b : BitVec w) : Nat → BitVec w
  | 0 => b
  | i + 1 => xt R (xpow R b i)

/-- partial sums of the product -/
def S (R a b : BitVec w) : Nat → BitVec w
  | 0 => 0#w
  | k + 1 => S R a b k ^^^ (if a.getLsbD k then xpow R b k else 0#w)

/-- the product -/
def mulG (R a b : BitVec w) : BitVec w := S R a b w

theorem xpow_xor (R a b : BitVec w) (i : Nat) : xpow R (a ^^^ b) i = xpow R a i ^^^ xpow R b i := by
  induction i with
  | zero => rfl
  | succ i ih => rw [xpow, ih, xt_xor]; rfl

theorem xpow_zero (R : BitVec w) (i : Nat) : xpow R 0#w i = 0#w := by
  induction i with
  | zero => rfl
  | succ i ih => rw [xpow, ih, xt_zero]

theorem xpow_xt (R b : BitVec w) (i : Nat) : xpow R (xt R b) i = xt R (xpow R b i) := by
  induction i with
  | zero => rfl
  | succ i ih => rw [xpow, ih]; rfl

theorem xor4 (a b c d : BitVec w) : (a ^^^ b) ^^^ (c ^^^ d) = (a ^^^ c) ^^^ (b ^^^ d) := by
  ext i h; simp only [BitVec.getElem_xor]; cases a[i] <;> cases b[i] <;> cases c[i] <;> cases d[i] <;> rfl

theorem S_xor_right (R a b c : BitVec w) (k : Nat) : S R a (b ^^^ c) k = S R a b k ^^^ S R a c k := by
  induction k with
  | zero => simp [S]
  | succ k ih =>
    simp only [S]; rw [ih, xpow_xor, xor4]
    cases a.getLsbD k <;> simp

theorem S_xor_left (R a b c : BitVec w) (k : Nat) : S R (a ^^^ b) c k = S R a c k ^^^ S R b c k := by
  induction k with
  | zero => simp [S]
  | succ k ih =>
    simp only [S]; rw [ih, xor4, BitVec.getLsbD_xor]
    cases a.getLsbD k <;> cases b.getLsbD k <;> simp

theorem S_xt (R a b : BitVec w) (k : Nat) : S R a (xt R b) k = xt R (S R a b k) := by
  induction k with
  | zero => simp [S]
  | succ k ih =>
    simp only [S]; rw [ih, xt_xor, xpow_xt]
    cases a.getLsbD k <;> simp

theorem S_linear (R : BitVec w) (f : BitVec w → BitVec w) (h0 : f 0#w = 0#w) (hx : ∀ a b, f (a ^^^ b) = f a ^^^ f b)
    (ht : ∀ a, f (xt R a) = xt R (f a)) (a b : BitVec w) (k : Nat) : S R a (f b) k = f (S R a b k) := by
  have hp : ∀ i, xpow R (f b) i = f (xpow R b i) := by
    intro i; induction i with
    | zero => rfl
    | succ i ih => rw [xpow, ih, ← ht]; rfl
  induction k with
  | zero => simp [S, h0]
  | succ k ih =>
    simp only [S]; rw [ih, hx, hp]
    cases a.getLsbD k <;> simp [h0]

theorem mulG_xor_right (R a b c : BitVec w) : mulG R a (b ^^^ c) = mulG R a b ^^^ mulG R a c := S_xor_right ..
theorem mulG_xor_left (R a b c : BitVec w) : mulG R (a ^^^ b) c = mulG R a c ^^^ mulG R b c := S_xor_left ..
theorem mulG_xt (R a b : BitVec w) : mulG R a (xt R b) = xt R (mulG R a b) := S_xt ..

theorem mulG_zero_right (R a : BitVec w) : mulG R a 0#w = 0#w := by
  have h := mulG_xor_right R a 0#w 0#w
  rw [BitVec.xor_self, BitVec.xor_self] at h
  exact h

theorem mulG_left_comm (R a b c : BitVec w) : mulG R a (mulG R b c) = mulG R b (mulG R a c) :=
  S_linear R (mulG R b) (mulG_zero_right R b) (mulG_xor_right R b) (mulG_xt R b) a c w

theorem xpow_one (R : BitVec w) (i : Nat) (h : i < w) : xpow R 1#w i = BitVec.twoPow w i := by
  induction i with
  | zero => rw [xpow, BitVec.twoPow_zero]
  | succ i ih =>
    rw [xpow, ih (by omega)]
    have hm : (BitVec.twoPow w i).msb = false := by
      rw [BitVec.msb_eq_getLsbD_last, BitVec.getLsbD_twoPow]
      have : i ≠ w - 1 := by omega
      simp [this]
    unfold xt
    rw [hm, if_neg (by decide)]
    ext j hj
    simp only [BitVec.getElem_shiftLeft, BitVec.getElem_twoPow]
    by_cases h0 : j < 1
    · have : ¬ (j = i + 1) := by omega
      simp [h0, this]
    · by_cases h1 : j = i + 1
      · subst h1; simp
      · have : ¬ (j - 1 = i) := by omega
        simp [h0, h1, this]

theorem S_one (R a : BitVec w) (k : Nat) (hk : k ≤ w) (j : Nat) :
    (S R a 1#w k).getLsbD j = (decide (j < k) && a.getLsbD j) := by
  induction k with
  | zero => simp [S]
  | succ k ih =>
    simp only [S]; rw [BitVec.getLsbD_xor, ih (by omega), xpow_one R k (by omega)]
    by_cases hjk : j = k
    · subst hjk
      have : j < w := by omega
      cases ha : a.getLsbD j <;> simp [this]
    · have h1 : decide (j < k + 1) = decide (j < k) := by rw [decide_eq_decide]; omega
      rw [h1]
      have : ¬ (k = j) := fun h => hjk h.symm
      cases a.getLsbD k <;> simp [BitVec.getLsbD_twoPow, this]

theorem mulG_one (R a : BitVec w) : mulG R a 1#w = a := by
  apply BitVec.eq_of_getLsbD_eq
  intro j hj
  rw [mulG, S_one R a w (Nat.le_refl _)]
  simp [hj]

theorem mulG_comm (R a b : BitVec w) : mulG R a b = mulG R b a := by
  have h := mulG_left_comm R a b 1#w
  rwa [mulG_one, mulG_one] at h

theorem mulG_assoc (R a b c : BitVec w) : mulG R (mulG R a b) c = mulG R a (mulG R b c) := by
  rw [mulG_comm R (mulG R a b) c, mulG_left_comm, mulG_comm R c b]

/-- One step of the shift-and-add loop used by the code. -/
def loopStep (R : BitVec w) (s : BitVec w × BitVec w × BitVec w) : BitVec w × BitVec w × BitVec w :=
  (xt R s.1, s.2.1 >>> 1, if s.2.1.getLsbD 0 then s.2.2 ^^^ s.1 else s.2.2)

theorem loop_inv (R a b : BitVec w) (k : Nat) :
    Nat.repeat (loopStep R) k (a, b, 0#w) = (xpow R a k, b >>> k, S R b a k) := by
  induction k with
  | zero => simp [Nat.repeat, xpow, S]
  | succ k ih =>
    rw [Nat.repeat, ih]
    simp only [loopStep, xpow, S, BitVec.getLsbD_ushiftRight, Nat.add_zero]
    refine Prod.ext rfl (Prod.ext ?_ ?_)
    · simp only []; rw [← BitVec.shiftRight_add]
    · simp only []; cases b.getLsbD k <;> simp

theorem loop_mul (R a b : BitVec w) : (Nat.repeat (loopStep R) w (a, b, 0#w)).2.2 = mulG R a b := by
  rw [loop_inv]; exact mulG_comm R b a

end ATLS.Gf
