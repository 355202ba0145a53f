import Verif.Model.Der
import Verif.Spec.Der
import Verif.Proof.Wire
import Verif.Proof.Gcm
/-
Proofs about `Verif/Model/Der.lean`.
-/
namespace ATLS.DerProof
open ATLS ATLS.Spec ATLS.Model ATLS.WireProof

/-- `to_u128_be_fill` is the positional value of up to 16 bytes. -/
theorem toU128BeFill_eq (l : Bytes) (h : l.length ≤ 16) : (toU128BeFill l).toNat = beNat l := by
  have hlt := beNat_lt l
  have h16 : (256 : Nat) ^ l.length ≤ 256 ^ 16 := Nat.pow_le_pow_right (by norm_num) h
  have hz : ∀ n, beNat (zeros n) = 0 := by
    intro n
    induction n with
    | zero => rfl
    | succ n ih => rw [zeros_succ, beNat_cons, ih]; simp
  unfold toU128BeFill
  split_ifs with h1
  · rw [GcmProof.toU128Be_eq _ (by simp [zeros]; omega)]
    unfold Spec.Gcm.toBlock
    rw [show 16 - (zeros (16 - l.length) ++ l).length = 0 by simp [zeros]; omega]
    simp only [zeros, List.replicate_zero, List.append_nil, BitVec.toNat_ofNat]
    have := hz (16 - l.length)
    unfold zeros at this
    rw [beNat_append, this, Nat.zero_mul, Nat.zero_add]
    exact Nat.mod_eq_of_lt (lt_of_lt_of_le hlt h16)
  · rw [List.take_of_length_le h, GcmProof.toU128Be_eq _ h]
    unfold Spec.Gcm.toBlock
    rw [show 16 - l.length = 0 by omega]
    simp only [zeros, List.replicate_zero, List.append_nil, BitVec.toNat_ofNat]
    exact Nat.mod_eq_of_lt (lt_of_lt_of_le hlt h16)

theorem beBytes_length (n v : Nat) : (beBytes n v).length = n := by
  induction n with
  | zero => rfl
  | succ n ih => simp [beBytes, ih]

/-- Reading back a long-form length. -/
theorem getLen_long {ε : Type} (pre rest : Bytes) (k n : Nat) (hk : k ≤ 8) (hn : n < 256 ^ k) :
    getLen (ε := ε) (pre ++ (BitVec.ofNat 8 (0x80 + k) :: (beBytes k n ++ rest))) pre.length = .ok (n, pre.length + 1 + k) := by
  unfold getLen
  rw [idx_append pre _ _ rfl]
  simp only [Res.ok_bind]
  have e1 : BitVec.ofNat 8 (0x80 + k) >>> 7 &&& 1#8 = 1#8 := by interval_cases k <;> rfl
  have e2 : (BitVec.ofNat 8 (0x80 + k) &&& 0x7f#8).toNat = k := by interval_cases k <;> rfl
  rw [if_pos e1, e2]
  have : pre ++ (BitVec.ofNat 8 (0x80 + k) :: (beBytes k n ++ rest)) = (pre ++ [BitVec.ofNat 8 (0x80 + k)]) ++ (beBytes k n ++ rest) := by simp
  rw [this]
  have hs := slice_mid (ε := ε) (pre ++ [BitVec.ofNat 8 (0x80 + k)]) (beBytes k n) rest (n := pre.length + 1) (m := pre.length + 1 + k) (by simp)
    (by rw [beBytes_length])
  rw [hs]
  simp only [Res.ok_bind]
  rw [toU128BeFill_eq _ (by rw [beBytes_length]; omega), beNat_beBytes, Nat.mod_eq_of_lt hn]
  rw [Nat.mod_eq_of_lt]
  exact lt_of_lt_of_le hn (le_trans (Nat.pow_le_pow_right (by norm_num) hk) (by norm_num))

/-- Reading back a DER length. -/
theorem getLen_length {ε : Type} (pre rest : Bytes) (n : Nat) (hn : n < 2 ^ 32) :
    getLen (ε := ε) (pre ++ (Der.length n ++ rest)) pre.length = .ok (n, pre.length + (Der.length n).length) := by
  unfold Der.length
  split_ifs with h1 h2 h3 h4
  · unfold getLen
    have : (BitVec.ofNat 8 n).toNat = n := by rw [BitVec.toNat_ofNat]; omega
    simp only [List.cons_append, List.nil_append, List.length_cons, List.length_nil]
    rw [idx_append pre _ _ rfl]
    simp only [Res.ok_bind]
    have e1 : ¬ BitVec.ofNat 8 n >>> 7 &&& 1#8 = 1#8 := by
      interval_cases n <;> decide
    rw [if_neg e1, this]
  · have := getLen_long (ε := ε) pre rest 1 n (by norm_num) (by omega)
    simpa [beBytes_length, Nat.add_assoc] using this
  · have := getLen_long (ε := ε) pre rest 2 n (by norm_num) (by omega)
    simpa [beBytes_length, Nat.add_assoc] using this
  · have := getLen_long (ε := ε) pre rest 3 n (by norm_num) (by omega)
    simpa [beBytes_length, Nat.add_assoc] using this
  · have := getLen_long (ε := ε) pre rest 4 n (by norm_num) (by omega)
    simpa [beBytes_length, Nat.add_assoc] using this

/-- Position of the contents octets in an element. -/
def headLen (body : Bytes) : Nat := 1 + (Der.length body.length).length

theorem tlv_length (tag : Byte) (body : Bytes) : (Der.tlv tag body).length = headLen body + body.length := by
  simp [Der.tlv, headLen]; omega

/-- `der_parse` on a DER element. -/
theorem derParse_tlv (pre rest body : Bytes) (tag : Byte) (form : EncodedForm) {c : Nat} (hc : c = pre.length)
    (h : DerType.fromU8 tag = some form) (hb : body.length < 2 ^ 32) :
    derParse c (pre ++ (Der.tlv tag body ++ rest)) = .ok (body.length, form, c + headLen body) := by
  subst hc
  unfold derParse Der.tlv
  have e : pre ++ (tag :: (Der.length body.length ++ body) ++ rest) = (pre ++ [tag]) ++ (Der.length body.length ++ (body ++ rest)) := by simp
  simp only [List.cons_append] at e ⊢
  rw [idx_append pre _ _ rfl]
  simp only [Res.ok_bind, h, Res.okOr]
  have hg := getLen_length (ε := ParseError) (pre ++ [tag]) (body ++ rest) _ hb
  rw [← e, show (pre ++ [tag]).length = pre.length + 1 by simp] at hg
  rw [hg]
  simp only [Res.ok_bind]
  rw [if_neg (by simp; omega)]
  simp [headLen, Nat.add_assoc]

/-- The contents of a DER element. -/
theorem slice_tlv {ε : Type} (pre rest body : Bytes) (tag : Byte) {c d : Nat} (hc : c = pre.length + headLen body) (hd : d = c + body.length) :
    slice (ε := ε) (pre ++ (Der.tlv tag body ++ rest)) c d = .ok body := by
  have : pre ++ (Der.tlv tag body ++ rest) = (pre ++ (tag :: Der.length body.length)) ++ (body ++ rest) := by simp [Der.tlv]
  rw [this]
  exact slice_mid (pre ++ (tag :: Der.length body.length)) body rest (by rw [hc]; simp [headLen]; omega) hd

theorem lt_pow_intLen (n : Nat) : n < 256 ^ Der.intLen n := by
  unfold Der.intLen
  have h1 : n < 2 ^ (n.log2 + 1) := Nat.lt_log2_self
  rw [show (256 : Nat) = 2 ^ 8 from rfl, ← Nat.pow_mul]
  exact lt_of_lt_of_le h1 (Nat.pow_le_pow_right (by norm_num) (by omega))

end ATLS.DerProof
