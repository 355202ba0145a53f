import Verif.Model.Record
import Verif.Spec.KeySchedule
import Verif.Proof.Kdf
import Verif.Proof.Cipher
/-
Lemmas on the key schedule and on per-record nonces.
-/
namespace ATLS.KsProof
open ATLS ATLS.Spec ATLS.Model

theorem expandLoop_ok (h : Hkdf) (info : Bytes) (outLen : Nat) (hout : outLen ≤ h.hash.size * 255) :
    ∀ (fuel i : Nat) (last okm : Bytes), okm.length = min outLen (i * h.hash.size) → outLen + 1 ≤ fuel + i → i ≤ 255 →
    ∃ b, h.expandLoop info outLen fuel i last okm = .ok b ∧ b.length = outLen := by
  intro fuel
  have hsz := size_pos h.hash
  induction fuel with
  | zero =>
    intro i last okm hl hf hi
    have : outLen ≤ i * h.hash.size := le_trans (by omega : outLen ≤ i * 1) (Nat.mul_le_mul_left i hsz)
    refine ⟨okm, ?_, by omega⟩
    unfold Hkdf.expandLoop; rw [if_neg (by omega)]
  | succ fuel ih =>
    intro i last okm hl hf hi
    unfold Hkdf.expandLoop
    by_cases hc : okm.length < outLen
    · have hlt : i * h.hash.size < outLen := by omega
      have hi' : i ≠ 255 := by
        rintro rfl
        rw [Nat.mul_comm] at hlt; omega
      have hs : (i + 1) * h.hash.size = i * h.hash.size + h.hash.size := by ring
      rw [if_pos hc, if_neg hi']
      simp only []
      have hsl : ∀ n, n ≤ h.hash.size → slice (ε := Empty) (Model.hmac h.hash h.prk [last, info, [BitVec.ofNat 8 (i + 1)]]) 0 n =
          .ok ((Model.hmac h.hash h.prk [last, info, [BitVec.ofNat 8 (i + 1)]]).take n) := by
        intro n hn
        unfold slice; rw [if_pos ⟨Nat.zero_le _, by rw [hmac_length]; exact hn⟩]; simp
      rw [hsl _ (by omega)]
      simp only [Res.ok_bind]
      apply ih
      · rw [List.length_append, List.length_take, hmac_length]; omega
      · omega
      · omega
    · rw [if_neg hc]
      exact ⟨okm, rfl, by omega⟩

theorem expandQ_ok (h : Hkdf) (info : Bytes) (outLen : Nat) (hout : outLen ≤ h.hash.size * 255) :
    ∃ b, h.expandQ info outLen = .ok b ∧ b.length = outLen := by
  obtain ⟨b, hb, hl⟩ := expandLoop_ok h info outLen hout (outLen + 1) 0 [] [] (by simp) (by omega) (by omega)
  refine ⟨b, ?_, hl⟩
  unfold Hkdf.expandQ Hkdf.expand
  rw [if_neg (by omega), hb]; rfl

theorem fromHkdf_ok (h : Hkdf) (n : Nat) (hn : n ≤ 255) :
    ∃ k, Key.fromHkdf h n 12 = .ok k ∧ k.key.length = n ∧ k.iv.length = 12 ∧ k.sequenceNumber = 0#64 := by
  have hs : 32 ≤ h.hash.size := by cases h.hash <;> decide
  obtain ⟨k, h1, h2⟩ := expandQ_ok h (getHkdfExpandLabel (ascii "key") [] n) n (by omega)
  obtain ⟨iv, h3, h4⟩ := expandQ_ok h (getHkdfExpandLabel (ascii "iv") [] 12) 12 (by omega)
  refine ⟨⟨h.prk, k, iv, 0#64⟩, ?_, h2, h4, rfl⟩
  unfold Key.fromHkdf
  rw [h1]; simp only [Res.ok_bind]
  rw [h3]; simp only [Res.ok_bind]
  rw [if_neg (by omega)]

/-- The two keys of a pair have the sizes of the suite and start at sequence number zero. -/
def Fresh (cs : CipherSuite) (w : WriteKeys) : Prop :=
  (w.server.key.length = cs.getKeyAndIvLen.1 ∧ w.server.iv.length = 12 ∧ w.server.sequenceNumber = 0#64) ∧
  (w.client.key.length = cs.getKeyAndIvLen.1 ∧ w.client.iv.length = 12 ∧ w.client.sequenceNumber = 0#64)

theorem keyLen_le (cs : CipherSuite) : cs.getKeyAndIvLen.1 ≤ 255 ∧ cs.getKeyAndIvLen.2 = 12 := by cases cs <;> decide

theorem handshakeKeys_ok (ks : KeySchedule) (cs : CipherSuite) : ∃ w, WriteKeys.handshakeKeys ks cs = .ok w ∧ Fresh cs w := by
  obtain ⟨h1, h2⟩ := keyLen_le cs
  obtain ⟨s, hs, s1⟩ := fromHkdf_ok ks.serverHandshakeTrafficSecret _ h1
  obtain ⟨c, hc, c1⟩ := fromHkdf_ok ks.clientHandshakeTrafficSecret _ h1
  refine ⟨⟨s, c⟩, ?_, s1, c1⟩
  unfold WriteKeys.handshakeKeys
  simp only [h2]
  rw [hs]; simp only [Res.ok_bind]; rw [hc]; rfl

theorem applicationKeys_ok (m : Hkdf) (hh : Bytes) (cs : CipherSuite) :
    ∃ w, WriteKeys.applicationKeysFromMasterSecret m hh cs = .ok w ∧ Fresh cs w := by
  obtain ⟨h1, h2⟩ := keyLen_le cs
  obtain ⟨cb, hcb, _⟩ := expandQ_ok m (getHkdfExpandLabel (ascii "c ap traffic") hh m.hash.size) m.hash.size (by omega)
  obtain ⟨sb, hsb, _⟩ := expandQ_ok m (getHkdfExpandLabel (ascii "s ap traffic") hh m.hash.size) m.hash.size (by omega)
  obtain ⟨s, hs, s1⟩ := fromHkdf_ok ⟨m.hash, sb⟩ _ h1
  obtain ⟨c, hc, c1⟩ := fromHkdf_ok ⟨m.hash, cb⟩ _ h1
  refine ⟨⟨s, c⟩, ?_, s1, c1⟩
  unfold WriteKeys.applicationKeysFromMasterSecret
  simp only [h2]
  rw [hcb]; simp only [Res.ok_bind]; rw [hc]; simp only [Res.ok_bind]; rw [hsb]; simp only [Res.ok_bind]; rw [hs]; rfl

/-! per-record nonces -/

theorem length12 {l : Bytes} (h : l.length = 12) :
    ∃ a b c d e f g i j k m n, l = [a, b, c, d, e, f, g, i, j, k, m, n] := by
  match l, h with
  | [a, b, c, d, e, f, g, i, j, k, m, n], _ => exact ⟨a, b, c, d, e, f, g, i, j, k, m, n, rfl⟩

theorem shift_byte (s : BitVec 64) (i : Nat) : (s >>> (i * 8)).setWidth 8 = BitVec.ofNat 8 (s.toNat / 256 ^ i) := by
  apply BitVec.eq_of_toNat_eq
  simp only [BitVec.toNat_setWidth, BitVec.toNat_ushiftRight, BitVec.toNat_ofNat, Nat.shiftRight_eq_div_pow]
  rw [Nat.mul_comm i 8, Nat.pow_mul]

/-- The nonce of the code is the RFC's. -/
theorem nonce_eq {ε : Type} (k : Key) (hiv : k.iv.length = 12) (hs : k.sequenceNumber ≠ BitVec.allOnes 64) :
    k.getPerRecordNonce (ε := ε) = .ok (Tls13.nonce k.iv k.sequenceNumber.toNat,
      { k with sequenceNumber := k.sequenceNumber + 1#64 }) := by
  unfold Key.getPerRecordNonce
  rw [if_neg hs]
  congr 2
  obtain ⟨a, b, c, d, e, f, g, i, j, l, m, n, hl⟩ := length12 hiv
  rw [hl]
  have hr : List.range 8 = [0, 1, 2, 3, 4, 5, 6, 7] := by decide
  rw [hr]
  simp only [List.foldl_cons, List.foldl_nil]
  rw [shift_byte _ 0, shift_byte _ 1, shift_byte _ 2, shift_byte _ 3,
    shift_byte _ 4, shift_byte _ 5, shift_byte _ 6, shift_byte _ 7]
  simp [Tls13.nonce, xorBytes, zeros, beBytes, List.replicate]

theorem nonce_length (iv : Bytes) (s : Nat) (h : iv.length = 12) : (Tls13.nonce iv s).length = 12 := by
  simp [Tls13.nonce, xorBytes, h]

theorem nonce_inj (iv : Bytes) (h : iv.length = 12) (s t : Nat) (hs : s < 2 ^ 64) (ht : t < 2 ^ 64)
    (e : Tls13.nonce iv s = Tls13.nonce iv t) : s = t := by
  have key : ∀ u, xorBytes (Tls13.nonce iv u) iv = zeros 4 ++ beBytes 8 u := by
    intro u
    unfold Tls13.nonce
    rw [h]
    apply List.ext_getElem (by simp [xorBytes, h])
    intro i h1 h2
    simp [xorBytes]
    rw [BitVec.xor_comm (iv[i]'_), BitVec.xor_assoc]; simp
  have e2 := key s
  rw [e, key t] at e2
  have e3 := List.append_cancel_left e2
  have := congrArg beNat e3
  rw [beNat_beBytes, beNat_beBytes, Nat.mod_eq_of_lt (by simpa using ht), Nat.mod_eq_of_lt (by simpa using hs)] at this
  exact this.symm

end ATLS.KsProof
