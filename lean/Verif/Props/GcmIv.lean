import Verif.Proof.GcmIv
import Verif.Proof.Cipher
/-
C113: AES-GCM with initialisation vectors of every length.
-/
namespace ATLS
open ATLS.Spec ATLS.Model

/-- C113 in full: with a key of a valid size and an IV of any length from one byte on, encryption is GCM-AE of SP 800-38D. -/
def C113_statement : Prop :=
  ∀ key iv plaintext aad : Bytes, (key.length = 16 ∨ key.length = 24 ∨ key.length = 32) → 1 ≤ iv.length → iv.length < 2 ^ 61 →
    aad.length < 2 ^ 61 → plaintext.length ≤ 2 ^ 36 - 32 →
    Model.Gcm.encrypt key iv plaintext aad = .ok (Spec.GcmIv.encrypt (Spec.Aes.aes key) iv plaintext aad)

/-- A 16-byte IV whose first counter block, under the all-zero key, consists of ones only. -/
def ivOfOnes : Bytes := [0x50, 0x52, 0x92, 0x59, 0x83, 0x34, 0x48, 0xf2, 0x77, 0x37, 0x3f, 0x1e, 0xc8, 0x5c, 0x48, 0x91]

/-- A 16-byte IV whose first counter block, under the all-zero key, ends in 32 ones after 96 zeros. -/
def ivOfCarry : Bytes := [0xac, 0x06, 0x00, 0xbe, 0x5f, 0xe8, 0x9b, 0x37, 0x28, 0xe9, 0x88, 0xe9, 0x61, 0x7f, 0xa8, 0x06]

/-- C113: encrypting one byte under such an IV panics. -/
theorem C113_panics : Model.Gcm.encrypt (zeros 16) ivOfOnes [0] [] = .panic := by decide +kernel

/-- The block cipher under the all-zero key. -/
def zeroCipher (b : Bytes) : Bytes :=
  match Aes.AES.init (ε := Unit) (zeros 16) .B128 with
  | .ok c => c.encrypt b
  | _ => []

theorem zero_cipher (b : Bytes) (hb : b.length = 16) : Spec.Aes.aes (zeros 16) b = zeroCipher b := by
  obtain ⟨bs, c, h1, h2, h3⟩ := GcmProof.encrypt_aes (ε := Unit) (zeros 16) (by decide)
  have h1' : Aes.Blocksize.new ((zeros 16).length * 8) = some .B128 := by decide
  rw [h1'] at h1
  cases h1
  unfold zeroCipher
  rw [h2, ← h3 b hb]

theorem first_zero (iv : Bytes) (hiv : iv.length ≠ 12) (hn : iv.length < 2 ^ 61) :
    Spec.GcmIv.firstBlock (Spec.Aes.aes (zeros 16)) iv
      = Model.Gcm.gmult (Model.Gcm.absorb (Spec.Gcm.toBlock (zeroCipher (zeros 16))) iv 0#128 ^^^ BitVec.ofNat 128 (iv.length * 8))
        (Spec.Gcm.toBlock (zeroCipher (zeros 16))) := by
  rw [← GcmProof.firstBlock_eq (Spec.Aes.aes (zeros 16)) iv hiv hn, zero_cipher _ (by decide)]

/-- C113: under the other one the call succeeds with a ciphertext that is not the standard's. -/
theorem C113_wrong : ∃ out, Model.Gcm.encrypt (zeros 16) ivOfCarry [0] [] = .ok out ∧
    out.1 ≠ (Spec.GcmIv.encrypt (Spec.Aes.aes (zeros 16)) ivOfCarry [0] []).1 := by
  have hs : (Spec.GcmIv.encrypt (Spec.Aes.aes (zeros 16)) ivOfCarry [0] []).1 = [0x66] := by
    unfold Spec.GcmIv.encrypt
    rw [first_zero ivOfCarry (by decide) (by decide)]
    simp only []
    rw [show Model.Gcm.gmult (Model.Gcm.absorb (Spec.Gcm.toBlock (zeroCipher (zeros 16))) ivOfCarry 0#128 ^^^
        BitVec.ofNat 128 (ivOfCarry.length * 8)) (Spec.Gcm.toBlock (zeroCipher (zeros 16))) = 0xffffffff#128 from by decide +kernel]
    show xorBytes [0] (Spec.Aes.aes (zeros 16) (Spec.Gcm.ofBlock _)) ++ [] = _
    rw [zero_cipher _ (by simp [Spec.Gcm.ofBlock])]
    decide +kernel
  rw [hs]
  have h : (match Model.Gcm.encrypt (zeros 16) ivOfCarry [0] [] with
      | .ok out => decide (out.1 ≠ [0x66])
      | _ => false) = true := by decide +kernel
  generalize Model.Gcm.encrypt (zeros 16) ivOfCarry [0] [] = r at h ⊢
  cases r with
  | ok out => exact ⟨out, rfl, of_decide_eq_true h⟩
  | err e => cases h
  | panic => cases h

/-- C113 in full is false. -/
theorem C113_false : ¬ C113_statement := by
  intro h
  have := h (zeros 16) ivOfOnes [0] [] (by decide) (by decide) (by decide) (by decide) (by decide)
  rw [C113_panics] at this
  cases this

/-- C113 as far as it holds: encryption is GCM-AE for every IV under which the last 32 bits of the counter block do not wrap around
within the message. Missing: the other IVs, for which `C113_panics` and `C113_wrong` show that nothing of the kind holds. -/
theorem C113_encrypt_partial (key iv plaintext aad : Bytes) (hk : key.length = 16 ∨ key.length = 24 ∨ key.length = 32)
    (hv : iv.length < 2 ^ 61) (ha : aad.length < 2 ^ 61) (hp : plaintext.length < 2 ^ 61)
    (hf : Spec.GcmIv.Fits (Spec.Aes.aes key) iv plaintext.length) :
    Model.Gcm.encrypt key iv plaintext aad = .ok (Spec.GcmIv.encrypt (Spec.Aes.aes key) iv plaintext aad) := by
  by_cases hiv : iv.length = 12
  · rw [CipherProof.gcm_encrypt_eq key iv plaintext aad hk hiv ha hp]
    simp only [Spec.GcmIv.encrypt, Spec.GcmIv.tag, Spec.GcmIv.firstBlock, if_pos hiv]; rfl
  · unfold Model.Gcm.encrypt
    rw [GcmProof.gcm_iv key iv plaintext aad hk hiv hv true ha hp hf]; rfl

/-- C113: and decryption is GCM-AD, with the same reservation. -/
theorem C113_decrypt_partial (key iv ciphertext aad tag : Bytes) (hk : key.length = 16 ∨ key.length = 24 ∨ key.length = 32)
    (hv : iv.length < 2 ^ 61) (ha : aad.length < 2 ^ 61) (hc : ciphertext.length < 2 ^ 61)
    (hf : Spec.GcmIv.Fits (Spec.Aes.aes key) iv ciphertext.length) :
    Model.Gcm.decrypt key iv ciphertext aad tag =
      match Spec.GcmIv.decrypt (Spec.Aes.aes key) iv ciphertext aad tag with
      | some p => .ok p
      | none => .err .badRecordMac := by
  by_cases hiv : iv.length = 12
  · rw [CipherProof.gcm_decrypt_eq key iv ciphertext aad tag hk hiv ha hc]
    have e : Spec.GcmIv.decrypt (Spec.Aes.aes key) iv ciphertext aad tag = Spec.Gcm.decrypt (Spec.Aes.aes key) iv ciphertext aad tag := by
      simp only [Spec.GcmIv.decrypt, Spec.GcmIv.tag, Spec.GcmIv.firstBlock, if_pos hiv]; rfl
    rw [e]
    cases Spec.Gcm.decrypt (Spec.Aes.aes key) iv ciphertext aad tag <;> rfl
  · unfold Model.Gcm.decrypt
    rw [GcmProof.gcm_iv key iv ciphertext aad hk hiv hv false ha hc hf]
    simp only [Res.ok_bind, Spec.GcmIv.decrypt, Bool.false_eq_true, if_false]
    by_cases h : tag = Spec.GcmIv.tag (Spec.Aes.aes key) iv ciphertext aad
    · rw [if_neg (fun hh => hh h.symm), if_pos h]
    · rw [if_pos (fun hh => h hh.symm), if_neg h]

/-- C113: without data to encrypt, nothing can wrap around: as a message authentication code (GMAC) the function is right for every
IV. -/
theorem C113_gmac (key iv aad : Bytes) (hk : key.length = 16 ∨ key.length = 24 ∨ key.length = 32)
    (hv : iv.length < 2 ^ 61) (ha : aad.length < 2 ^ 61) :
    Model.Gcm.encrypt key iv [] aad = .ok (Spec.GcmIv.encrypt (Spec.Aes.aes key) iv [] aad) := by
  apply C113_encrypt_partial key iv [] aad hk hv ha (by decide)
  show (Spec.GcmIv.firstBlock _ _).toNat % 2 ^ 32 + 0 < 2 ^ 32
  omega

/-- An 8-byte IV under which nothing wraps around. -/
example : Spec.GcmIv.Fits (Spec.Aes.aes (zeros 16)) [0xca, 0xfe, 0xba, 0xbe, 0xfa, 0xce, 0xdb, 0xad] 60 := by
  unfold Spec.GcmIv.Fits
  rw [first_zero _ (by decide) (by decide)]
  decide +kernel

/-- Test case 5 of the GCM specification (an 8-byte IV), its first block. -/
example : (match Model.Gcm.encrypt [0xfe, 0xff, 0xe9, 0x92, 0x86, 0x65, 0x73, 0x1c, 0x6d, 0x6a, 0x8f, 0x94, 0x67, 0x30, 0x83, 0x08]
    [0xca, 0xfe, 0xba, 0xbe, 0xfa, 0xce, 0xdb, 0xad]
    [0xd9, 0x31, 0x32, 0x25, 0xf8, 0x84, 0x06, 0xe5, 0xa5, 0x59, 0x09, 0xc5, 0xaf, 0xf5, 0x26, 0x9a] [] with
    | .ok out => out.1
    | _ => []) = [0x61, 0x35, 0x3b, 0x4c, 0x28, 0x06, 0x93, 0x4a, 0x77, 0x7f, 0xf5, 0x1f, 0xa2, 0x2a, 0x47, 0x55] := by
  decide +kernel

end ATLS
