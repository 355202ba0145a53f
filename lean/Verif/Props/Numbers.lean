import Verif.Proof.X509
import Verif.Proof.ChaCha
import Verif.Proof.Gcm
/-
C04: the conversions of fixed width.
-/
namespace ATLS
open ATLS.Spec ATLS.Model

namespace NumberProof

theorem shl_ofNat (w : Nat) (b : Byte) (k : Nat) : (b.setWidth w) <<< k = BitVec.ofNat w (b.toNat * 2 ^ k) := by
  apply BitVec.eq_of_toNat_eq
  simp only [BitVec.toNat_shiftLeft, BitVec.toNat_setWidth, BitVec.toNat_ofNat, Nat.shiftLeft_eq]
  rw [Nat.mod_mul_mod]

theorem fold_le (w : Nat) (l : Bytes) (i : Nat) (acc : BitVec w) :
    (l.zipIdx i).foldl (fun (res : BitVec w) (p : Byte × Nat) => res + (p.1.setWidth w) <<< (p.2 * 8)) acc = acc + BitVec.ofNat w (leNat l * 2 ^ (i * 8)) := by
  induction l generalizing i acc with
  | nil => simp [leNat]
  | cons b l ih =>
    rw [List.zipIdx_cons, List.foldl_cons, ih, shl_ofNat, BitVec.add_assoc, ← BitVec.ofNat_add]
    congr 2
    rw [show leNat (b :: l) = b.toNat + 256 * leNat l from rfl, show (i + 1) * 8 = i * 8 + 8 by omega, pow_add]
    ring

theorem fold_be (w n : Nat) (l : Bytes) (i : Nat) (h : i + l.length = n + 1) (acc : BitVec w) :
    (l.zipIdx i).foldl (fun (res : BitVec w) (p : Byte × Nat) => res + (p.1.setWidth w) <<< (n * 8 - p.2 * 8)) acc = acc + BitVec.ofNat w (beNat l) := by
  induction l generalizing i acc with
  | nil => simp [beNat]
  | cons b l ih =>
    rw [List.length_cons] at h
    rw [List.zipIdx_cons, List.foldl_cons, shl_ofNat, ih (i + 1) (by omega), BitVec.add_assoc, ← BitVec.ofNat_add]
    congr 2
    rw [beNat_cons, show n * 8 - i * 8 = 8 * l.length by omega, pow_mul]
    norm_num

theorem fold_end (w n : Nat) (l : Bytes) (i : Nat) (h : i + l.length ≤ n + 1) (acc : BitVec w) :
    (l.zipIdx i).foldl (fun (res : BitVec w) (p : Byte × Nat) => res + (p.1.setWidth w) <<< (n * 8 - p.2 * 8)) acc =
      acc + BitVec.ofNat w (beNat l * 256 ^ (n + 1 - i - l.length)) := by
  induction l generalizing i acc with
  | nil => simp [beNat]
  | cons b l ih =>
    rw [List.length_cons] at h
    rw [List.zipIdx_cons, List.foldl_cons, shl_ofNat, ih (i + 1) (by omega), BitVec.add_assoc, ← BitVec.ofNat_add]
    congr 2
    rw [beNat_cons, List.length_cons, show n + 1 - (i + 1) - l.length = n + 1 - i - (l.length + 1) by omega,
      show n * 8 - i * 8 = 8 * (l.length + (n + 1 - i - (l.length + 1))) by omega, pow_mul, pow_add]
    norm_num
    ring

theorem toU128Be_end (l : Bytes) : (toU128Be l).toNat = beNat (l.take 16) * 256 ^ (16 - l.length) := by
  unfold toU128Be
  rw [fold_end 128 15 _ 0 (by simp)]
  have h1 : 15 + 1 - 0 - (l.take 16).length = 16 - l.length := by rw [List.length_take]; omega
  rw [h1]
  have h2 := beNat_lt (l.take 16)
  have h3 : beNat (l.take 16) * 256 ^ (16 - l.length) < 256 ^ 16 := by
    calc beNat (l.take 16) * 256 ^ (16 - l.length) < 256 ^ (l.take 16).length * 256 ^ (16 - l.length) := Nat.mul_lt_mul_of_pos_right h2 (by positivity)
      _ = 256 ^ ((l.take 16).length + (16 - l.length)) := (pow_add _ _ _).symm
      _ = 256 ^ 16 := by congr 1; rw [List.length_take]; omega
  simp only [BitVec.toNat_add, BitVec.toNat_ofNat, BitVec.zero_add]
  exact Nat.mod_eq_of_lt h3

end NumberProof

open NumberProof

/-- C04, the conversions of fixed width: two bytes (fewer are those of a smaller number), 16 bytes (more are ignored; fewer count as the first ones, or
with `fill` and least significant first as those of a smaller number), a 128-bit number as its bytes, eight bytes most significant first
(the function is called `to_u64_le`), and a 64-bit number as its eight bytes, least significant first. -/
theorem C04_fixed_width :
    (∀ l : Bytes, toU16 l = beNat (l.take 2)) ∧
    (∀ l : Bytes, (toU128Be l).toNat = beNat (l.take 16) * 256 ^ (16 - l.length)) ∧
    (∀ n : BitVec 128, (u128ToBytesBe n).length = 16 ∧ beNat (u128ToBytesBe n) = n.toNat) ∧
    (∀ l : Bytes, (toU128BeFill l).toNat = beNat (l.take 16)) ∧
    (∀ l : Bytes, (toU128Le l).toNat = leNat (l.take 16)) ∧
    (∀ l : Bytes, 8 ≤ l.length → ∃ v, (toU64Le l : Res Empty (BitVec 64)) = .ok v ∧ v.toNat = beNat (l.take 8)) ∧
    (∀ l : Bytes, l.length < 8 → (toU64Le l : Res Empty (BitVec 64)) = .panic) ∧
    ∀ n : BitVec 64, (u64ToBytesLe n).length = 8 ∧ leNat (u64ToBytesLe n) = n.toNat := by
  refine ⟨?_, toU128Be_end, ?_, X509Proof.toU128BeFill_take, ?_, ?_, ?_, ?_⟩
  · rintro (_ | ⟨a, _ | ⟨b, rest⟩⟩)
    · rfl
    · simp [toU16, beNat]
    · rw [WireProof.toU16_cons]
      simp [beNat]
  · intro n
    refine ⟨by simp [u128ToBytesBe], ?_⟩
    have := toU128Be_end (u128ToBytesBe n)
    rw [GcmProof.toU128Be_bytes] at this
    rw [this, List.take_of_length_le (by simp), GcmProof.u128ToBytesBe_length, pow_zero, mul_one]
  · intro l
    unfold toU128Le
    rw [fold_le]
    have := leNat_lt (l.take 16)
    have h16 : (256 : Nat) ^ (l.take 16).length ≤ 256 ^ 16 := Nat.pow_le_pow_right (by norm_num) (by simp)
    simp only [Nat.zero_mul, pow_zero, mul_one, BitVec.zero_add, BitVec.toNat_ofNat]
    exact Nat.mod_eq_of_lt (lt_of_lt_of_le this h16)
  · intro l hl
    unfold toU64Le slice
    rw [if_pos ⟨by omega, hl⟩]
    refine ⟨_, rfl, ?_⟩
    rw [fold_be 64 7 _ 0 (by simp; omega)]
    have := beNat_lt (l.take 8)
    have h8 : (256 : Nat) ^ (l.take 8).length ≤ 256 ^ 8 := Nat.pow_le_pow_right (by norm_num) (by simp)
    simp only [BitVec.zero_add, BitVec.toNat_ofNat, List.drop_zero, Nat.sub_zero]
    exact Nat.mod_eq_of_lt (lt_of_lt_of_le this h8)
  · intro l hl
    unfold toU64Le slice
    rw [if_neg (by omega)]
    rfl
  · intro n
    refine ⟨by simp [u64ToBytesLe], ?_⟩
    have := ChaChaProof.u64_eq n.toNat
    rw [BitVec.ofNat_toNat, BitVec.setWidth_eq] at this
    rw [this, leNat_leBytes]
    exact Nat.mod_eq_of_lt n.isLt

example : (toU64Le [1, 2, 3, 4, 5, 6, 7, 8, 9] : Res Empty (BitVec 64)) = .ok 0x0102030405060708#64 ∧ u64ToBytesLe 0x0102030405060708#64 = [8, 7, 6, 5, 4, 3, 2, 1] := by
  decide +kernel

end ATLS
