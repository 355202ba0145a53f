import Verif.Proof.Der
import Verif.Spec.Ecdsa
/-
C31, C67: the DER encoding of ECDSA signatures.
-/
namespace ATLS
open ATLS.Spec ATLS.Model ATLS.DerProof ATLS.WireProof

/-- C67: every DER Ecdsa-Sig-Value, whatever follows it, is decoded to its two integers and consumed exactly (up to 2^31 contents octets per
integer). -/
theorem C67_decode (r s : Nat) (hr : Der.intLen r < 2 ^ 30) (hs : Der.intLen s < 2 ^ 30) (rest : Bytes) :
    Signature.fromDer (Der.ecdsaSig r s ++ rest) = .ok (⟨s, r⟩, (Der.ecdsaSig r s).length) := by
  obtain ⟨br, hbr⟩ : ∃ br, br = beBytes (Der.intLen r) r := ⟨_, rfl⟩
  obtain ⟨bs, hbs⟩ : ∃ bs, bs = beBytes (Der.intLen s) s := ⟨_, rfl⟩
  have lr : br.length < 2 ^ 30 := by rw [hbr, beBytes_length]; exact hr
  have ls : bs.length < 2 ^ 30 := by rw [hbs, beBytes_length]; exact hs
  have hbound : ∀ b : Bytes, headLen b ≤ 6 := by
    intro b; unfold headLen Der.length; split_ifs <;> simp [beBytes_length]
  obtain ⟨body, hbody⟩ : ∃ body, body = Der.tlv 2#8 br ++ Der.tlv 2#8 bs := ⟨_, rfl⟩
  have hlen : body.length = headLen br + br.length + (headLen bs + bs.length) := by rw [hbody, List.length_append, tlv_length, tlv_length]
  have b1 := hbound br
  have b2 := hbound bs
  have hsig : Der.ecdsaSig r s = Der.tlv 0x30#8 body := by unfold Der.ecdsaSig Der.sequence Der.integer; rw [← hbr, ← hbs, ← hbody]
  obtain ⟨head, hhead⟩ : ∃ head : Bytes, head = 0x30#8 :: Der.length body.length := ⟨_, rfl⟩
  have hhl : head.length = headLen body := by rw [hhead]; simp [headLen]; omega
  have split1 : Der.tlv 0x30#8 body ++ rest = head ++ (Der.tlv 2#8 br ++ (Der.tlv 2#8 bs ++ rest)) := by
    have : body ++ rest = Der.tlv 2#8 br ++ (Der.tlv 2#8 bs ++ rest) := by rw [hbody, List.append_assoc]
    rw [hhead, Der.tlv, ← this]; simp
  have split2 : Der.tlv 0x30#8 body ++ rest = (head ++ Der.tlv 2#8 br) ++ (Der.tlv 2#8 bs ++ rest) := by rw [split1]; simp
  rw [hsig]
  unfold Signature.fromDer
  have d1 := derParse_tlv [] rest body 0x30#8 (.constructed .sequence) rfl (by decide) (by omega)
  rw [List.nil_append, List.length_nil] at d1
  have d2 := derParse_tlv head (Der.tlv 2#8 bs ++ rest) br 2#8 (.primitive .integer) hhl.symm (by decide) (by omega)
  have d3 := derParse_tlv (head ++ Der.tlv 2#8 br) rest bs 2#8 (.primitive .integer) (c := headLen body + headLen br + br.length)
    (by rw [List.length_append, hhl, tlv_length]; omega) (by decide) (by omega)
  have s2 := slice_tlv (ε := TlsError) head (Der.tlv 2#8 bs ++ rest) br 2#8 (c := headLen body + headLen br)
    (d := headLen body + headLen br + br.length) (by omega) rfl
  have s3 := slice_tlv (ε := TlsError) (head ++ Der.tlv 2#8 br) rest bs 2#8 (c := headLen body + headLen br + br.length + headLen bs)
    (d := headLen body + headLen br + br.length + headLen bs + bs.length) (by rw [List.length_append, hhl, tlv_length]; omega) rfl
  rw [← split1] at d2 s2
  rw [← split2] at d3 s3
  rw [d1]
  simp only [Res.mapErr, Res.ok_bind, ne_eq, not_true_eq_false, if_false, Nat.zero_add, d2, s2, d3, s3, toIbigBe_eq]
  rw [hbr, hbs, beNat_beBytes, beNat_beBytes, Nat.mod_eq_of_lt (lt_pow_intLen r), Nat.mod_eq_of_lt (lt_pow_intLen s), ← hbr, ← hbs, tlv_length, hlen]
  congr 2
  omega

example : Der.ecdsaSig 1 128 = [0x30, 7, 2, 1, 1, 2, 2, 0, 128] := by decide +kernel

/-- C31 for the signatures satisfying `P`: the bytes sent for a signature are the DER encoding of `(r, s)`, and reading them (whatever follows)
gives the signature back. -/
def C31_for (P : Nat → Prop) : Prop :=
  ∀ r s : Nat, 0 < r → r < P256.n → 0 < s → s < P256.n → P r → P s →
    Signature.toDer ⟨s, r⟩ = .ok (Der.ecdsaSig r s) ∧
    ∀ b rest, Signature.toDer ⟨s, r⟩ = .ok b → Signature.fromDer (b ++ rest) = .ok (⟨s, r⟩, b.length)

/-- C31 in full. -/
def C31_statement : Prop := C31_for fun _ => True

namespace DerProof

theorem log2_32 (n : Nat) (h1 : 256 ^ 31 ≤ n) (h2 : n < 256 ^ 32) : 248 ≤ n.log2 ∧ n.log2 < 256 := by
  constructor
  · rw [Nat.le_log2 (by have : (0 : Nat) < 256 ^ 31 := by positivity
                        omega)]
    rw [show (256 : Nat) = 2 ^ 8 from rfl, ← Nat.pow_mul] at h1
    exact h1
  · rw [Nat.log2_lt (by have : (0 : Nat) < 256 ^ 31 := by positivity
                        omega)]
    exact h2

/-- One integer of the encoder. -/
theorem derInteger_eq (n : Nat) (h1 : 256 ^ 31 ≤ n) (h2 : n < 256 ^ 32) :
    Signature.derInteger (beBytes 32 n) = .ok (Der.integer n) := by
  obtain ⟨hl1, hl2⟩ := log2_32 n h1 h2
  have hn0 : n ≠ 0 := by
    have : (0 : Nat) < 256 ^ 31 := by positivity
    omega
  unfold Signature.derInteger Der.integer Der.tlv
  have hidx : idx (ε := TlsError) (beBytes 32 n) 0 = .ok (BitVec.ofNat 8 (n / 256 ^ 31)) := rfl
  have hq : n / 256 ^ 31 < 256 := by
    rw [Nat.div_lt_iff_lt_mul (by positivity), ← Nat.pow_succ']; exact h2
  rw [hidx]
  simp only [Res.ok_bind, beBytes_length]
  have htop : BitVec.ofNat 8 (n / 256 ^ 31) >>> 7 = 1#8 ↔ 2 ^ 255 ≤ n := by
    have e : BitVec.ofNat 8 (n / 256 ^ 31) >>> 7 = 1#8 ↔ 128 ≤ n / 256 ^ 31 := by
      obtain ⟨q, hqq⟩ : ∃ q, q = n / 256 ^ 31 := ⟨_, rfl⟩
      rw [← hqq] at hq ⊢
      interval_cases q <;> decide
    rw [e, Nat.le_div_iff_mul_le (by positivity)]
    rw [show 128 * 256 ^ 31 = 2 ^ 255 by rw [show (256 : Nat) = 2 ^ 8 from rfl, ← Nat.pow_mul, show 128 = 2 ^ 7 from rfl, ← Nat.pow_add]]
  by_cases hb : 2 ^ 255 ≤ n
  · have hlog : n.log2 = 255 := by
      have := (Nat.le_log2 hn0).2 hb
      omega
    have hi : Der.intLen n = 33 := by unfold Der.intLen; rw [hlog]
    rw [if_pos (htop.2 hb), hi]
    have : beBytes 33 n = 0#8 :: beBytes 32 n := by
      rw [beBytes, Nat.div_eq_of_lt h2]
    rw [this]
    rfl
  · have hlog : n.log2 < 255 := by
      rw [Nat.log2_lt hn0]; omega
    have hi : Der.intLen n = 32 := by unfold Der.intLen; omega
    rw [if_neg (fun h => hb (htop.1 h)), hi]
    rfl

theorem integer_length (n : Nat) (h1 : 256 ^ 31 ≤ n) (h2 : n < 256 ^ 32) : (Der.integer n).length ≤ 35 ∧ Der.intLen n ≤ 33 := by
  obtain ⟨hl1, hl2⟩ := log2_32 n h1 h2
  have hi : Der.intLen n ≤ 33 := by unfold Der.intLen; omega
  refine ⟨?_, hi⟩
  unfold Der.integer
  rw [tlv_length, headLen, beBytes_length, Der.length, if_pos (by omega)]
  simp; omega

theorem n_lt : P256.n < 256 ^ 32 := by decide +kernel

theorem toDer_eq (r s : Nat) (h1 : 256 ^ 31 ≤ r) (h2 : r < 256 ^ 32) (h3 : 256 ^ 31 ≤ s) (h4 : s < 256 ^ 32) :
    Signature.toDer ⟨s, r⟩ = .ok (Der.ecdsaSig r s) := by
  unfold Signature.toDer
  simp only [ibigTo32_big_full s h4 h3, ibigTo32_big_full r h2 h1, Res.ok_bind, derInteger_eq r h1 h2, derInteger_eq s h3 h4]
  obtain ⟨l1, _⟩ := integer_length r h1 h2
  obtain ⟨l2, _⟩ := integer_length s h3 h4
  unfold Der.ecdsaSig Der.sequence Der.tlv Der.length
  rw [if_pos (by rw [List.length_append]; omega)]
  simp

end DerProof

/-- C31 for `r` and `s` of at least 2^248 (a fraction of about 254/256 of all signatures). Missing: smaller values, for which the encoding is wrong
(`C31_false`, `C31_small_wrong`). -/
theorem C31_der_partial : C31_for fun v => 2 ^ 248 ≤ v := by
  intro r s _ hr2 _ hs2 hr hs
  have e : (2 : Nat) ^ 248 = 256 ^ 31 := by rw [show (256 : Nat) = 2 ^ 8 from rfl, ← Nat.pow_mul]
  simp only [e] at hr hs
  have hr2 := lt_trans hr2 n_lt
  have hs2 := lt_trans hs2 n_lt
  refine ⟨toDer_eq r s hr hr2 hs hs2, ?_⟩
  intro b rest hb
  rw [toDer_eq r s hr hr2 hs hs2] at hb
  have hb := Res.ok.inj hb
  subst hb
  obtain ⟨_, i1⟩ := integer_length r hr hr2
  obtain ⟨_, i2⟩ := integer_length s hs hs2
  exact C67_decode r s (by omega) (by omega) rest

example : ∃ r s : Nat, 0 < r ∧ r < P256.n ∧ 0 < s ∧ s < P256.n ∧ 2 ^ 248 ≤ r ∧ 2 ^ 248 ≤ s := ⟨2 ^ 255, 2 ^ 248, by decide +kernel⟩

/-- Every signature with a non-zero `r` below 2^248 is encoded as one with a different `r`: the bytes decode to `r` shifted left. -/
theorem C31_small_wrong (r s : Nat) (h0 : 0 < r) (h1 : r < 2 ^ 248) (h2 : 256 ^ 31 ≤ s) (h3 : s < 256 ^ 32) :
    ∃ b sig n, Signature.toDer ⟨s, r⟩ = .ok b ∧ Signature.fromDer b = .ok (sig, n) ∧ sig.r ≠ r ∧ sig.s = s := by
  have e : (2 : Nat) ^ 248 = 256 ^ 31 := by rw [show (256 : Nat) = 2 ^ 8 from rfl, ← Nat.pow_mul]
  rw [e] at h1
  have hlt32 : (256 : Nat) ^ 31 ≤ 256 ^ 32 := Nat.pow_le_pow_right (by norm_num) (by norm_num)
  -- the 32 bytes written for `r`
  have hk31 : (ubigLe r).length ≤ 31 := ubigLe_length_le h1
  have hvec : ibigTo32bytes (ε := TlsError) (r : Int) .big = .ok ((ubigLe r).reverse ++ zeros (32 - (ubigLe r).length)) := by
    unfold ibigTo32bytes ibigToVec
    rw [if_neg (by omega)]
    simp only [if_true, Res.ok_bind, Int.toNat_natCast, List.length_reverse]
    rw [List.take_of_length_le (by rw [List.length_reverse]; omega)]
  obtain ⟨r', hr'⟩ : ∃ r', r' = beNat ((ubigLe r).reverse ++ zeros (32 - (ubigLe r).length)) := ⟨_, rfl⟩
  have hz : ∀ n, beNat (zeros n) = 0 := by
    intro n
    induction n with
    | zero => rfl
    | succ n ih => rw [zeros_succ, beNat_cons, ih]; simp
  have hval : r' = r * 256 ^ (32 - (ubigLe r).length) := by
    rw [hr', beNat_append, hz, ← leNat_eq_beNat_reverse, leNat_ubigLe]
    simp [zeros]
  have hlow : 256 ^ ((ubigLe r).length - 1) ≤ r ∧ (ubigLe r).length ≠ 0 := by
    have := ubigLeAux_spec (r.log2 / 8 + 1) r (lt_pow_log2_bytes r)
    exact ⟨this.2.1 (by omega), this.2.2 (by omega)⟩
  have hlenb : ((ubigLe r).reverse ++ zeros (32 - (ubigLe r).length)).length = 32 := by simp [zeros]; omega
  have hge : 256 ^ 31 ≤ r' := by
    rw [hval]
    calc 256 ^ 31 = 256 ^ ((ubigLe r).length - 1) * 256 ^ (32 - (ubigLe r).length) := by rw [← Nat.pow_add]; congr 1; omega
      _ ≤ _ := Nat.mul_le_mul_right _ hlow.1
  have hlt : r' < 256 ^ 32 := by
    have := beNat_lt ((ubigLe r).reverse ++ zeros (32 - (ubigLe r).length))
    rw [hlenb, ← hr'] at this
    exact this
  have hbytes : (ubigLe r).reverse ++ zeros (32 - (ubigLe r).length) = beBytes 32 r' := by
    have := beBytes_beNat ((ubigLe r).reverse ++ zeros (32 - (ubigLe r).length))
    rw [hlenb, ← hr'] at this
    exact this.symm
  have htd : Signature.toDer ⟨s, r⟩ = .ok (Der.ecdsaSig r' s) := by
    have h := toDer_eq r' s hge hlt h2 h3
    unfold Signature.toDer at h ⊢
    simp only [hvec, hbytes, ibigTo32_big_full r' hlt hge] at h ⊢
    exact h
  obtain ⟨_, i1⟩ := integer_length r' hge hlt
  obtain ⟨_, i2⟩ := integer_length s h2 h3
  have hdec := C67_decode r' s (by omega) (by omega) []
  rw [List.append_nil] at hdec
  refine ⟨_, _, _, htd, hdec, ?_, rfl⟩
  simp only [ne_eq, Nat.cast_inj]
  omega

example := C31_small_wrong 1 (256 ^ 31) (by norm_num) (by norm_num) (by norm_num) (by norm_num)

/-- C31 is false: `r = 1` is sent as `r = 2^248`. -/
theorem C31_false : ¬ C31_statement := by
  intro h
  have := (h 1 1 (by decide) (by decide +kernel) (by decide) (by decide +kernel) trivial trivial).1
  revert this
  decide +kernel

end ATLS
