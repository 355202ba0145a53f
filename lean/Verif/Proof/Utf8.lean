import Verif.Model.Utf8
import Verif.Spec.Utf8
import Mathlib.Tactic.IntervalCases
/-
`utf8Valid` accepts exactly the UTF-8 encodings of sequences of Unicode scalar values.
-/
namespace ATLS.Utf8Proof
open ATLS ATLS.Model ATLS.Spec.Utf8

theorem nat8 (n : Nat) (h : n < 256) : (BitVec.ofNat 8 n).toNat = n := by
  rw [BitVec.toNat_ofNat]; omega

theorem byteOf {n : Nat} {b : Byte} (h : n = b.toNat) : BitVec.ofNat 8 n = b := by
  rw [h]; simp

theorem cont_iff (b : Byte) : utf8Cont b = true ↔ 0x80 ≤ b.toNat ∧ b.toNat ≤ 0xBF := by
  simp [utf8Cont]

theorem valid_encode (c : Nat) (hc : Scalar c) (r : Bytes) : utf8Valid (encode c ++ r) = utf8Valid r := by
  unfold Scalar at hc
  unfold encode
  split_ifs with h1 h2 h3
  · rw [List.singleton_append, utf8Valid.eq_def]
    simp only [nat8 c (by omega)]
    rw [if_pos h1]
  · simp only [List.cons_append, List.nil_append]
    rw [utf8Valid.eq_def]
    simp only [nat8 (0xC0 + c / 64) (by omega)]
    rw [if_neg (by omega), if_pos (by omega)]
    have : utf8Cont (BitVec.ofNat 8 (0x80 + c % 64)) = true := by rw [cont_iff, nat8 _ (by omega)]; omega
    rw [this, Bool.true_and]
  · simp only [List.cons_append, List.nil_append]
    rw [utf8Valid.eq_def]
    simp only [nat8 (0xE0 + c / 4096) (by omega)]
    rw [if_neg (by omega), if_neg (by omega), if_pos (by omega)]
    have e1 : utf8Cont (BitVec.ofNat 8 (0x80 + c / 64 % 64)) = true := by rw [cont_iff, nat8 _ (by omega)]; omega
    have e2 : utf8Cont (BitVec.ofNat 8 (0x80 + c % 64)) = true := by rw [cont_iff, nat8 _ (by omega)]; omega
    rw [e1, e2, nat8 (0x80 + c / 64 % 64) (by omega)]
    have e3 : (decide (0xE0 + c / 4096 ≠ 0xE0) || decide (0xA0 ≤ 0x80 + c / 64 % 64)) = true := by
      simp only [Bool.or_eq_true, decide_eq_true_eq]; omega
    have e4 : (decide (0xE0 + c / 4096 ≠ 0xED) || decide (0x80 + c / 64 % 64 ≤ 0x9F)) = true := by
      simp only [Bool.or_eq_true, decide_eq_true_eq]; omega
    rw [e3, e4]
    rfl
  · simp only [List.cons_append, List.nil_append]
    rw [utf8Valid.eq_def]
    simp only [nat8 (0xF0 + c / 262144) (by omega)]
    rw [if_neg (by omega), if_neg (by omega), if_neg (by omega), if_pos (by omega)]
    have e0 : utf8Cont (BitVec.ofNat 8 (0x80 + c / 4096 % 64)) = true := by rw [cont_iff, nat8 _ (by omega)]; omega
    have e1 : utf8Cont (BitVec.ofNat 8 (0x80 + c / 64 % 64)) = true := by rw [cont_iff, nat8 _ (by omega)]; omega
    have e2 : utf8Cont (BitVec.ofNat 8 (0x80 + c % 64)) = true := by rw [cont_iff, nat8 _ (by omega)]; omega
    rw [e0, e1, e2, nat8 (0x80 + c / 4096 % 64) (by omega)]
    have e3 : (decide (0xF0 + c / 262144 ≠ 0xF0) || decide (0x90 ≤ 0x80 + c / 4096 % 64)) = true := by
      simp only [Bool.or_eq_true, decide_eq_true_eq]; omega
    have e4 : (decide (0xF0 + c / 262144 ≠ 0xF4) || decide (0x80 + c / 4096 % 64 ≤ 0x8F)) = true := by
      simp only [Bool.or_eq_true, decide_eq_true_eq]; omega
    rw [e3, e4]
    rfl

/-- If the test accepts a non-empty string, it starts with the encoding of a scalar value and accepts the rest. -/
theorem valid_cons (b0 : Byte) (rest : Bytes) (h : utf8Valid (b0 :: rest) = true) :
    ∃ c r, Scalar c ∧ b0 :: rest = encode c ++ r ∧ utf8Valid r = true := by
  have hb := b0.isLt
  rw [utf8Valid.eq_def] at h
  simp only at h
  by_cases h1 : b0.toNat < 0x80
  · rw [if_pos h1] at h
    refine ⟨b0.toNat, rest, Or.inl (by omega), ?_, h⟩
    unfold encode
    rw [if_pos h1]; simp
  rw [if_neg h1] at h
  by_cases h2 : 0xC2 ≤ b0.toNat ∧ b0.toNat ≤ 0xDF
  · rw [if_pos h2] at h
    rcases rest with _ | ⟨b1, r⟩
    · simp at h
    simp only [Bool.and_eq_true, cont_iff] at h
    obtain ⟨h3, hr⟩ := h
    refine ⟨(b0.toNat - 0xC0) * 64 + (b1.toNat - 0x80), r, Or.inl (by omega), ?_, hr⟩
    unfold encode
    rw [if_neg (by omega), if_pos (by omega), byteOf (b := b0) (by omega), byteOf (b := b1) (by omega)]
    rfl
  rw [if_neg h2] at h
  by_cases h3 : 0xE0 ≤ b0.toNat ∧ b0.toNat ≤ 0xEF
  · rw [if_pos h3] at h
    rcases rest with _ | ⟨b1, _ | ⟨b2, r⟩⟩
    · simp at h
    · simp at h
    simp only [Bool.and_eq_true, Bool.or_eq_true, cont_iff, decide_eq_true_eq] at h
    obtain ⟨⟨⟨⟨h4, h5⟩, h6⟩, h7⟩, hr⟩ := h
    refine ⟨(b0.toNat - 0xE0) * 4096 + (b1.toNat - 0x80) * 64 + (b2.toNat - 0x80), r, ?_, ?_, hr⟩
    · unfold Scalar; omega
    unfold encode
    rw [if_neg (by omega), if_neg (by omega), if_pos (by omega), byteOf (b := b0) (by omega), byteOf (b := b1) (by omega),
      byteOf (b := b2) (by omega)]
    rfl
  rw [if_neg h3] at h
  by_cases h4 : 0xF0 ≤ b0.toNat ∧ b0.toNat ≤ 0xF4
  · rw [if_pos h4] at h
    rcases rest with _ | ⟨b1, _ | ⟨b2, _ | ⟨b3, r⟩⟩⟩
    · simp at h
    · simp at h
    · simp at h
    simp only [Bool.and_eq_true, Bool.or_eq_true, cont_iff, decide_eq_true_eq] at h
    obtain ⟨⟨⟨⟨⟨h5, h6⟩, h7⟩, h8⟩, h9⟩, hr⟩ := h
    refine ⟨(b0.toNat - 0xF0) * 262144 + (b1.toNat - 0x80) * 4096 + (b2.toNat - 0x80) * 64 + (b3.toNat - 0x80), r, ?_, ?_, hr⟩
    · unfold Scalar; omega
    unfold encode
    rw [if_neg (by omega), if_neg (by omega), if_neg (by omega), byteOf (b := b0) (by omega), byteOf (b := b1) (by omega),
      byteOf (b := b2) (by omega), byteOf (b := b3) (by omega)]
    rfl
  rw [if_neg h4] at h
  simp at h

theorem encode_ne (c : Nat) : encode c ≠ [] := by
  unfold encode; split_ifs <;> simp

/-- `String::from_utf8` succeeds exactly on the encodings of sequences of scalar values. -/
theorem utf8Valid_iff (b : Bytes) : utf8Valid b = true ↔ ∃ cs : List Nat, (∀ c ∈ cs, Scalar c) ∧ b = (cs.map encode).flatten := by
  constructor
  · induction hn : b.length using Nat.strong_induction_on generalizing b with
    | _ n ih =>
      intro h
      rcases b with _ | ⟨b0, rest⟩
      · exact ⟨[], by simp, rfl⟩
      obtain ⟨c, r, hc, heq, hr⟩ := valid_cons b0 rest h
      have hlt : r.length < n := by
        rw [← hn, heq, List.length_append]
        have := List.length_pos_iff.mpr (encode_ne c)
        omega
      obtain ⟨cs, hcs, rfl⟩ := ih r.length hlt r rfl hr
      refine ⟨c :: cs, ?_, by rw [heq]; simp⟩
      intro x hx
      rcases List.mem_cons.mp hx with rfl | hx
      · exact hc
      · exact hcs x hx
  · rintro ⟨cs, hcs, rfl⟩
    induction cs with
    | nil => rfl
    | cons c cs ih =>
      rw [List.map_cons, List.flatten_cons, valid_encode c (hcs c (by simp))]
      exact ih (fun x hx => hcs x (by simp [hx]))

end ATLS.Utf8Proof
