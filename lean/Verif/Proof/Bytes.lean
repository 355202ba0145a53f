import Verif.Model.Bytes
import Verif.Spec.Common
import Mathlib.Tactic.Ring
import Mathlib.Tactic.Linarith
/-
Helper lemmas on positional values and encodings.
-/
namespace ATLS
open ATLS.Spec ATLS.Model

@[simp] theorem zeros_length (n : Nat) : (zeros n).length = n := by simp [zeros]
@[simp] theorem zeros_zero : zeros 0 = [] := rfl
theorem zeros_add (m n : Nat) : zeros (m + n) = zeros m ++ zeros n := by
  simp [zeros, List.replicate_append_replicate]
theorem zeros_succ (n : Nat) : zeros (n + 1) = 0#8 :: zeros n := rfl

@[simp] theorem beNat_nil : beNat [] = 0 := rfl

theorem beNat_foldl (l : Bytes) (a : Nat) :
    List.foldl (fun acc (b : Byte) => acc * 256 + b.toNat) a l = a * 256 ^ l.length + beNat l := by
  induction l generalizing a with
  | nil => simp
  | cons x xs ih =>
    simp only [List.foldl_cons, List.length_cons, beNat]
    rw [ih, ih (0 * 256 + x.toNat)]
    ring

theorem beNat_cons (b : Byte) (l : Bytes) : beNat (b :: l) = b.toNat * 256 ^ l.length + beNat l := by
  conv_lhs => unfold beNat
  rw [List.foldl_cons, beNat_foldl]; simp

theorem beNat_append (a b : Bytes) : beNat (a ++ b) = beNat a * 256 ^ b.length + beNat b := by
  conv_lhs => unfold beNat
  rw [List.foldl_append, beNat_foldl]; rfl

@[simp] theorem beNat_singleton (b : Byte) : beNat [b] = b.toNat := by simp [beNat_cons]

theorem beNat_lt (l : Bytes) : beNat l < 256 ^ l.length := by
  induction l with
  | nil => simp
  | cons b l ih =>
    rw [beNat_cons, List.length_cons, Nat.pow_succ]
    have := b.isLt
    have h : b.toNat * 256 ^ l.length ≤ 255 * 256 ^ l.length := Nat.mul_le_mul_right _ (by omega)
    omega

@[simp] theorem beNat_zeros (n : Nat) : beNat (zeros n) = 0 := by
  induction n with
  | zero => rfl
  | succ n ih => rw [zeros_succ, beNat_cons, ih]; simp

@[simp] theorem beBytes_length (n v : Nat) : (beBytes n v).length = n := by
  induction n with
  | zero => rfl
  | succ n ih => simp [beBytes, ih]

theorem beNat_beBytes (n v : Nat) : beNat (beBytes n v) = v % 256 ^ n := by
  induction n with
  | zero => simp [beBytes, Nat.mod_one]
  | succ n ih =>
    rw [beBytes, beNat_cons, ih, beBytes_length]
    simp only [BitVec.toNat_ofNat, Nat.reducePow]
    rw [Nat.pow_succ, Nat.mod_mul]; ring

theorem beBytes_mod (n v : Nat) : beBytes n (v % 256 ^ n) = beBytes n v := by
  suffices h : ∀ k m, k ≤ m → beBytes k (v % 256 ^ m) = beBytes k v by exact h n n (le_refl _)
  intro k m hkm
  induction k with
  | zero => rfl
  | succ k ih =>
    rw [beBytes, beBytes, ih (by omega)]
    congr 1
    obtain ⟨d, rfl⟩ : ∃ d, m = k + (d + 1) := ⟨m - k - 1, by omega⟩
    apply BitVec.eq_of_toNat_eq
    simp only [BitVec.toNat_ofNat, Nat.reducePow]
    rw [Nat.pow_add, Nat.mod_mul_right_div_self, Nat.pow_succ, Nat.mod_mul_left_mod]

theorem beBytes_beNat_add (l : Bytes) (c : Nat) : beBytes l.length (beNat l + c * 256 ^ l.length) = l := by
  induction l generalizing c with
  | nil => rfl
  | cons b l ih =>
    rw [beNat_cons, List.length_cons, beBytes]
    have hlt := beNat_lt l
    have h1 : (b.toNat * 256 ^ l.length + beNat l + c * 256 ^ (l.length + 1)) =
        beNat l + (b.toNat + c * 256) * 256 ^ l.length := by ring
    rw [h1, ih]
    congr 1
    apply BitVec.eq_of_toNat_eq
    simp only [BitVec.toNat_ofNat, Nat.reducePow]
    rw [Nat.add_mul_div_right _ _ (by positivity), Nat.div_eq_of_lt hlt]
    have := b.isLt
    omega

theorem beBytes_beNat (l : Bytes) : beBytes l.length (beNat l) = l := by
  simpa using beBytes_beNat_add l 0

theorem beNat_inj {a b : Bytes} (hl : a.length = b.length) (h : beNat a = beNat b) : a = b := by
  rw [← beBytes_beNat a, ← beBytes_beNat b, hl, h]

theorem leNat_eq_beNat_reverse (l : Bytes) : leNat l = beNat l.reverse := by
  induction l with
  | nil => rfl
  | cons b l ih => rw [leNat, List.reverse_cons, beNat_append, ih]; simp; ring

theorem leNat_append (a b : Bytes) : leNat (a ++ b) = leNat a + 256 ^ a.length * leNat b := by
  induction a with
  | nil => simp [leNat]
  | cons x xs ih => simp only [List.cons_append, leNat, ih, List.length_cons]; ring

theorem leNat_lt (l : Bytes) : leNat l < 256 ^ l.length := by
  rw [leNat_eq_beNat_reverse]; simpa using beNat_lt l.reverse

@[simp] theorem leNat_zeros (n : Nat) : leNat (zeros n) = 0 := by
  induction n with
  | zero => rfl
  | succ n ih => rw [zeros_succ, leNat, ih]; simp

@[simp] theorem leBytes_length (n v : Nat) : (leBytes n v).length = n := by
  induction n generalizing v with
  | zero => rfl
  | succ n ih => simp [leBytes, ih]

theorem leNat_leBytes (n v : Nat) : leNat (leBytes n v) = v % 256 ^ n := by
  induction n generalizing v with
  | zero => simp [leBytes, leNat, Nat.mod_one]
  | succ n ih =>
    rw [leBytes, leNat, ih]
    simp only [BitVec.toNat_ofNat, Nat.reducePow]
    rw [Nat.pow_succ, Nat.mul_comm (256 ^ n) 256, Nat.mod_mul]

theorem leBytes_leNat (l : Bytes) : leBytes l.length (leNat l) = l := by
  induction l with
  | nil => rfl
  | cons b l ih =>
    have := b.isLt
    rw [leNat, List.length_cons, leBytes]
    have h : (b.toNat + 256 * leNat l) / 256 = leNat l := by omega
    rw [h, ih]
    congr 1
    apply BitVec.eq_of_toNat_eq
    simp only [BitVec.toNat_ofNat, Nat.reducePow]
    omega

theorem leNat_inj {a b : Bytes} (hl : a.length = b.length) (h : leNat a = leNat b) : a = b := by
  rw [← leBytes_leNat a, ← leBytes_leNat b, hl, h]

theorem leBytes_reverse (n v : Nat) : (leBytes n v).reverse = beBytes n v := by
  apply beNat_inj (by simp)
  rw [← leNat_eq_beNat_reverse, leNat_leBytes, beNat_beBytes]

/-! ### the loops of utils/bytes.rs -/

theorem toIbigLe_eq (l : Bytes) : toIbigLe l = leNat l := by
  have h : ∀ (l : Bytes) (k a : Nat),
      (l.zipIdx k).foldl (fun res (p : Byte × Nat) => res + p.1.toNat <<< (p.2 * 8)) a
        = a + 256 ^ k * leNat l := by
    intro l
    induction l with
    | nil => intro k a; simp [leNat]
    | cons b l ih =>
      intro k a
      rw [List.zipIdx_cons, List.foldl_cons, ih, leNat, Nat.shiftLeft_eq, Nat.mul_comm k 8, Nat.pow_mul]
      simp only [Nat.reducePow]
      ring
  unfold toIbigLe
  rw [h]; simp

theorem toIbigBe_eq (l : Bytes) : toIbigBe l = beNat l := by
  have h : ∀ (l : Bytes) (k a : Nat),
      (l.zipIdx k).foldl (fun res (p : Byte × Nat) => res + p.1.toNat <<< ((k + l.length - 1) * 8 - p.2 * 8)) a
        = a + beNat l := by
    intro l
    induction l with
    | nil => intro k a; simp
    | cons b l ih =>
      intro k a
      rw [List.zipIdx_cons, List.foldl_cons]
      have h1 : k + (b :: l).length - 1 = (k + 1) + l.length - 1 := by simp +arith
      rw [h1, ih, beNat_cons, Nat.shiftLeft_eq]
      have h2 : (k + 1 + l.length - 1) * 8 - (b, k).2 * 8 = 8 * l.length := by simp; omega
      rw [h2, Nat.pow_mul]
      simp only [Nat.reducePow]
      omega
  have := h l 0 0
  simp only [Nat.zero_add] at this
  exact this

/-! ### minimal representation -/

theorem ubigLeAux_spec (fuel n : Nat) (h : n < 256 ^ fuel) :
    leNat (ubigLeAux fuel n) = n ∧ (n ≠ 0 → 256 ^ ((ubigLeAux fuel n).length - 1) ≤ n) ∧
    (n ≠ 0 → (ubigLeAux fuel n).length ≠ 0) := by
  induction fuel generalizing n with
  | zero => simp at h; subst h; simp [ubigLeAux, leNat]
  | succ f ih =>
    rw [ubigLeAux]
    by_cases hn : n = 0
    · simp [hn, leNat]
    · have hlt : n / 256 < 256 ^ f := by rw [Nat.div_lt_iff_lt_mul (by decide)]; rwa [Nat.pow_succ] at h
      obtain ⟨h1, h2, h3⟩ := ih (n / 256) hlt
      simp only [hn, if_false]
      refine ⟨?_, ?_, ?_⟩
      · rw [leNat, h1]; simp only [BitVec.toNat_ofNat, Nat.reducePow]; omega
      · intro _
        by_cases hz : n / 256 = 0
        · have hnil : ubigLeAux f (n / 256) = [] := by
            rw [hz]; cases f <;> simp [ubigLeAux]
          rw [hnil]; simp; omega
        · have := h2 hz
          have h3' := h3 hz
          simp only [List.length_cons, Nat.add_sub_cancel]
          obtain ⟨m, hm⟩ := Nat.exists_eq_succ_of_ne_zero h3'
          rw [hm, Nat.succ_eq_add_one, Nat.add_sub_cancel] at this
          rw [hm, Nat.pow_succ]
          omega
      · intro _; simp

theorem lt_pow_log2_bytes (n : Nat) : n < 256 ^ (n.log2 / 8 + 1) := by
  have h : n < 2 ^ (n.log2 + 1) := Nat.lt_log2_self
  calc n < 2 ^ (n.log2 + 1) := h
    _ ≤ 2 ^ (8 * (n.log2 / 8 + 1)) := Nat.pow_le_pow_right (by decide) (by omega)
    _ = 256 ^ (n.log2 / 8 + 1) := by rw [Nat.pow_mul]

@[simp] theorem leNat_ubigLe (n : Nat) : leNat (ubigLe n) = n :=
  (ubigLeAux_spec _ _ (lt_pow_log2_bytes n)).1

theorem ubigLe_length_le {n k : Nat} (h : n < 256 ^ k) : (ubigLe n).length ≤ k := by
  by_cases hn : n = 0
  · subst hn; simp [ubigLe, ubigLeAux]
  · have h2 := (ubigLeAux_spec _ _ (lt_pow_log2_bytes n)).2.1 hn
    change 256 ^ ((ubigLe n).length - 1) ≤ n at h2
    have : 256 ^ ((ubigLe n).length - 1) < 256 ^ k := lt_of_le_of_lt h2 h
    have := (Nat.pow_lt_pow_iff_right (by decide : 1 < 256)).1 this
    omega

theorem le_ubigLe_length {n k : Nat} (h : 256 ^ k ≤ n) : k + 1 ≤ (ubigLe n).length := by
  have h1 : n < 256 ^ (ubigLe n).length := by
    conv_lhs => rw [← leNat_ubigLe n]
    exact leNat_lt _
  have : 256 ^ k < 256 ^ (ubigLe n).length := lt_of_le_of_lt h h1
  exact (Nat.pow_lt_pow_iff_right (by decide : 1 < 256)).1 this

theorem ubigLe_eq_leBytes (n : Nat) : ubigLe n = leBytes (ubigLe n).length n := by
  conv_rhs => rw [← leNat_ubigLe n]
  rw [leNat_ubigLe, ← leNat_ubigLe n]
  exact (leBytes_leNat (ubigLe (leNat (ubigLe n)))).symm.trans (by simp)

theorem ibigTo32_little {ε : Type} (n : Nat) (h : n < 256 ^ 32) :
    ibigTo32bytes (ε := ε) n .little = .ok (leBytes 32 n) := by
  have hl := ubigLe_length_le h
  unfold ibigTo32bytes ibigToVec
  rw [if_neg (by omega)]
  simp only [Int.toNat_natCast, Res.ok_bind, reduceCtorEq, if_false]
  rw [List.take_of_length_le hl]
  congr 1
  apply leNat_inj
  · simp; omega
  · rw [leNat_append, leNat_zeros, leNat_ubigLe, leNat_leBytes, Nat.mod_eq_of_lt h]; simp

theorem ibigTo32_big {ε : Type} (n : Nat) (h : n < 256 ^ 32) :
    ibigTo32bytes (ε := ε) n .big = .ok (beBytes 32 (n * 256 ^ (32 - (ubigLe n).length))) := by
  have hl := ubigLe_length_le h
  unfold ibigTo32bytes ibigToVec
  rw [if_neg (by omega)]
  simp only [Int.toNat_natCast, Res.ok_bind, if_true]
  rw [List.take_of_length_le (by simpa using hl)]
  congr 1
  have hlt : n * 256 ^ (32 - (ubigLe n).length) < 256 ^ 32 := by
    have h1 : n < 256 ^ (ubigLe n).length := by
      conv_lhs => rw [← leNat_ubigLe n]
      exact leNat_lt _
    calc _ < 256 ^ (ubigLe n).length * 256 ^ (32 - (ubigLe n).length) :=
          Nat.mul_lt_mul_of_pos_right h1 (by positivity)
      _ = 256 ^ 32 := by rw [← Nat.pow_add]; congr 1; omega
  apply beNat_inj
  · simp; omega
  · rw [beNat_append, beNat_zeros, ← leNat_eq_beNat_reverse, leNat_ubigLe, beNat_beBytes, Nat.mod_eq_of_lt hlt]
    simp

theorem ibigTo32_big_full {ε : Type} (n : Nat) (h : n < 256 ^ 32) (h2 : 256 ^ 31 ≤ n) :
    ibigTo32bytes (ε := ε) n .big = .ok (beBytes 32 n) := by
  rw [ibigTo32_big n h]
  have h1 := ubigLe_length_le h
  have h3 := le_ubigLe_length h2
  have : (ubigLe n).length = 32 := by omega
  rw [this]; simp

end ATLS
