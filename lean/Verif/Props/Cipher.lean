import Verif.Proof.Cipher
/-
C11-C16: AES, AES-GCM, ChaCha20, Poly1305 and the AEAD interface.
-/
namespace ATLS
open ATLS.Spec ATLS.Model

/-! ### C11 -/

/-- C11: for a 128-, 192- or 256-bit key the block cipher object exists, encrypts every 16-byte block as FIPS 197 says, and its
`decrypt` gives the block back. -/
theorem C11_aes_fips (key block : Bytes) (hk : key.length = 16 ∨ key.length = 24 ∨ key.length = 32) (hb : block.length = 16) :
    ∃ bs c, Aes.Blocksize.new (key.length * 8) = some bs ∧ Aes.AES.init (ε := TlsError) key bs = .ok c ∧
      c.encrypt block = Spec.Aes.aes key block ∧ c.decrypt (c.encrypt block) = block := by
  obtain ⟨bs, c, h1, h2, h3⟩ := GcmProof.encrypt_aes (ε := TlsError) key hk
  exact ⟨bs, c, h1, h2, h3 block hb, AesProof.decrypt_encrypt c block hb⟩

/-- FIPS 197 appendix C.1. -/
example : (match Aes.AES.init (ε := Unit) ((List.range 16).map (BitVec.ofNat 8)) .B128 with
    | .ok c => c.encrypt ((List.range 16).map fun i => BitVec.ofNat 8 (i * 17))
    | _ => []) = [0x69, 0xc4, 0xe0, 0xd8, 0x6a, 0x7b, 0x04, 0x30, 0xd8, 0xcd, 0xb7, 0x80, 0x70, 0xb4, 0xc5, 0x5a] := by
  decide +kernel

/-! ### C12 -/

/-- C12: AES-GCM encryption is GCM-AE of SP 800-38D. (The bounds on the lengths, 2^61 bytes, are those of the 64-bit length fields.) -/
theorem C12_gcm_sp800_38d (key iv plaintext aad : Bytes) (hk : key.length = 16 ∨ key.length = 24 ∨ key.length = 32)
    (hiv : iv.length = 12) (ha : aad.length < 2 ^ 61) (hp : plaintext.length < 2 ^ 61) :
    Model.Gcm.encrypt key iv plaintext aad = .ok (Spec.Gcm.encrypt (Spec.Aes.aes key) iv plaintext aad) :=
  CipherProof.gcm_encrypt_eq key iv plaintext aad hk hiv ha hp

example := C12_gcm_sp800_38d (zeros 16) (zeros 12) [1, 2, 3] [4, 5] (by decide) (by decide) (by decide) (by decide)

/-- C12: and decryption is GCM-AD. -/
theorem C12_gcm_decrypt (key iv ciphertext aad tag : Bytes) (hk : key.length = 16 ∨ key.length = 24 ∨ key.length = 32)
    (hiv : iv.length = 12) (ha : aad.length < 2 ^ 61) (hc : ciphertext.length < 2 ^ 61) :
    Model.Gcm.decrypt key iv ciphertext aad tag =
      match Spec.Gcm.decrypt (Spec.Aes.aes key) iv ciphertext aad tag with
      | some p => .ok p
      | none => .err .badRecordMac := by
  rw [CipherProof.gcm_decrypt_eq key iv ciphertext aad tag hk hiv ha hc]
  cases Spec.Gcm.decrypt (Spec.Aes.aes key) iv ciphertext aad tag <;> rfl

/-- Test case 2 of the GCM specification. -/
example : Model.Gcm.encrypt (zeros 16) (zeros 12) (zeros 16) [] =
    .ok ([0x03, 0x88, 0xda, 0xce, 0x60, 0xb6, 0xa3, 0x92, 0xf3, 0x28, 0xc2, 0xb9, 0x71, 0xb2, 0xfe, 0x78],
      [0xab, 0x6e, 0x47, 0xd4, 0x2c, 0xec, 0x13, 0xbd, 0xf5, 0x3a, 0x67, 0xb2, 0x12, 0x57, 0xbd, 0xdf]) := by
  decide +kernel

/-! ### C13 -/

/-- C13 in full: ChaCha20 encryption is RFC 8439's for every message. -/
def C13_statement : Prop :=
  ∀ (key iv m : Bytes) (counter : Nat), key.length = 32 → iv.length = 12 →
    Model.ChaCha.encrypt m key iv counter = .ok (Spec.ChaCha.encrypt key counter iv m)

/-- C13 as far as it holds: for messages of up to 2^24 bytes whose length is not a positive multiple of 64. Missing: the other lengths,
for which the statement is false (`C13_last_block_in_clear`, `C13_false`). -/
theorem C13_chacha20_partial (key iv m : Bytes) (counter : Nat) (hk : key.length = 32) (hiv : iv.length = 12)
    (hlen : m.length ≤ 2 ^ 24) (h : m.length % 64 ≠ 0 ∨ m = []) :
    Model.ChaCha.encrypt m key iv counter = .ok (Spec.ChaCha.encrypt key counter iv m) :=
  ChaChaProof.encrypt_eq m key iv hk hiv counter hlen h

/-- For every message whose length is a positive multiple of 64 the last 64 bytes of the "ciphertext" are the plaintext, whatever key and
nonce. -/
theorem C13_last_block_in_clear (key iv m : Bytes) (counter : Nat) (hk : key.length = 32) (hiv : iv.length = 12)
    (hlen : m.length ≤ 2 ^ 24) (h : m.length % 64 = 0) :
    ∃ c : Bytes, Model.ChaCha.encrypt m key iv counter = .ok c ∧ c.drop (m.length - 64) = m.drop (m.length - 64) := by
  refine ⟨_, ChaChaProof.encrypt_multiple m key iv hk hiv counter hlen h, ?_⟩
  have hl : (Spec.ChaCha.encrypt key counter iv (m.take (m.length - 64))).length = m.length - 64 := by
    simp [Spec.ChaCha.encrypt]
  rw [List.drop_append_of_le_length (by rw [hl]), List.drop_of_length_le (by rw [hl]), List.nil_append]

example := C13_last_block_in_clear (zeros 32) (zeros 12) (zeros 128) 1 (by decide) (by decide) (by decide) (by decide)

/-- C13 is false: a 64-byte message is "encrypted" to itself although the key stream is not zero. -/
theorem C13_false : ¬ C13_statement := by
  intro h
  have h1 := h (zeros 32) (zeros 12) (zeros 64) 0 (by decide) (by decide)
  have h2 : Model.ChaCha.encrypt (zeros 64) (zeros 32) (zeros 12) 0 = .ok (zeros 64) := by decide +kernel
  have h3 : Model.ChaCha.encrypt (zeros 1) (zeros 32) (zeros 12) 0 = .ok [0x76] := by decide +kernel
  have h4 := h (zeros 32) (zeros 12) (zeros 1) 0 (by decide) (by decide)
  rw [h2] at h1
  rw [h3] at h4
  simp only [Res.ok.injEq] at h1 h4
  have e1 : (zeros 64)[0]? = (Spec.ChaCha.encrypt (zeros 32) 0 (zeros 12) (zeros 64))[0]? := congrArg (fun l : Bytes => l[0]?) h1
  have e4 : ([0x76#8])[0]? = (Spec.ChaCha.encrypt (zeros 32) 0 (zeros 12) (zeros 1))[0]? := congrArg (fun l : Bytes => l[0]?) h4
  simp only [Spec.ChaCha.encrypt, List.getElem?_mapIdx] at e1 e4
  simp only [show (zeros 64)[0]? = some 0#8 from rfl, show (zeros 1)[0]? = some 0#8 from rfl, Option.map_some] at e1 e4
  rw [← e4] at e1
  revert e1; decide

/-- RFC 8439 section 2.4.2 is covered by the hypotheses of `C13_chacha20_partial`: 114 bytes. -/
example : Model.ChaCha.encrypt (zeros 114) (zeros 32) (zeros 12) 0 = .ok (Spec.ChaCha.encrypt (zeros 32) 0 (zeros 12) (zeros 114)) :=
  C13_chacha20_partial _ _ _ _ (by decide) (by decide) (by decide) (Or.inl (by decide))

/-! ### C14 -/

/-- C14 in full: the authenticator is Poly1305, and the tag of a ciphertext is the AEAD tag of RFC 8439, for every message. -/
def C14_statement : Prop :=
  ∀ (key m : Bytes), key.length = 32 → Poly1305.mac (ε := TlsError) key m = .ok (Spec.ChaCha.mac key m)

/-- C14 for messages of up to 2^24 bytes. Missing: longer messages, for which the number of blocks is computed in `f32` and comes out
wrong (`C14_false`). -/
theorem C14_poly1305_partial (key m : Bytes) (hk : key.length = 32) (hm : m.length ≤ 2 ^ 24) :
    Poly1305.mac (ε := TlsError) key m = .ok (Spec.ChaCha.mac key m) :=
  ChaChaProof.mac_eq key m hk hm

/-- RFC 8439 section 2.5.2. -/
example : Poly1305.mac (ε := TlsError) [0x85, 0xd6, 0xbe, 0x78, 0x57, 0x55, 0x6d, 0x33, 0x7f, 0x44, 0x52, 0xfe, 0x42, 0xd5, 0x06, 0xa8,
      0x01, 0x03, 0x80, 0x8a, 0xfb, 0x0d, 0xb2, 0xfd, 0x4a, 0xbf, 0xf6, 0xaf, 0x41, 0x49, 0xf5, 0x1b]
    (ascii "Cryptographic Forum Research Group") =
    .ok [0xa8, 0x06, 0x1d, 0xc1, 0x30, 0x51, 0x36, 0xc6, 0xc2, 0x2b, 0x8b, 0xaf, 0x0c, 0x01, 0x27, 0xa9] := by
  decide +kernel

/-- C14: the tag the AEAD attaches is the RFC 8439 tag of the ciphertext it returns: Poly1305 under the one-time key of the padded
additional data, the padded ciphertext and the two lengths. -/
theorem C14_aead_tag (key iv plaintext aad : Bytes) (hk : key.length = 32) (hiv : iv.length = 12)
    (hlen : aad.length + plaintext.length + 46 ≤ 2 ^ 24) :
    ∃ c, Poly1305.encrypt key iv plaintext aad = .ok (c, Spec.ChaCha.tag key iv aad c) ∧ c.length = plaintext.length := by
  obtain ⟨c, _, h1, h2⟩ := CipherProof.poly_encrypt_ok key iv plaintext aad hk hiv hlen
  exact ⟨c, h2, h1⟩

example := C14_aead_tag (zeros 32) (zeros 12) [1, 2, 3] [4, 5] (by decide) (by decide) (by decide)

theorem succ_mod_mod_ne (p M x : Nat) (hp : 1 < p) (hM : 1 < M) (h : (p - 1) % M ≠ 0) : x % p % M ≠ (x + 1) % p % M := by
  intro e
  have hy : x % p < p := Nat.mod_lt _ (by omega)
  have hs : (x + 1) % p = (x % p + 1) % p := by rw [Nat.mod_add_mod]
  rw [hs] at e
  by_cases hlast : x % p + 1 < p
  · rw [Nat.mod_eq_of_lt hlast] at e
    have hd := Nat.sub_mod_eq_zero_of_mod_eq e.symm
    rw [show x % p + 1 - x % p = 1 from by omega, Nat.mod_eq_of_lt hM] at hd
    exact absurd hd (by decide)
  · have : x % p = p - 1 := by omega
    rw [this, show p - 1 + 1 = p from by omega, Nat.mod_self, Nat.zero_mod] at e
    exact h e

/-- C14 is false: of a message of 2^24 + 1 bytes the last byte is not authenticated. -/
theorem C14_false : ¬ C14_statement := by
  intro h
  have hf : f32CeilDiv (16 * 2 ^ 20 + 1) 16 = 2 ^ 20 := by decide +kernel
  have key : ∀ (m : Bytes) (N : Nat), m.length = 16 * N → f32CeilDiv (16 * N + 1) 16 = N → False := by
    intro m N hm hN
    obtain ⟨F, hF⟩ : ∃ F, F = ((List.range N).map fun i => (m.drop (i * 16)).take 16).foldl
      (fun a b => (a + leNat (b ++ [1])) * 1 % Spec.ChaCha.p) 0 := ⟨_, rfl⟩
    have hmap : ∀ b : Byte, ((List.range N).map fun i => ((m ++ [b]).drop (i * 16)).take 16) =
        (List.range N).map fun i => (m.drop (i * 16)).take 16 := by
      intro b
      refine List.map_congr_left fun i hi => ?_
      have hi := List.mem_range.1 hi
      rw [List.drop_append_of_le_length (by omega), List.take_append_of_le_length (by rw [List.length_drop]; omega)]
    have hr : toIbigLe (((1#8 :: zeros 31).drop 0).take (16 - 0)) &&& 0x0ffffffc0ffffffc0ffffffc0fffffff = 1 := by decide +kernel
    have hs : toIbigLe (((1#8 :: zeros 31).drop 16).take (32 - 16)) = 0 := by decide +kernel
    have hmod : ∀ b : Byte, Poly1305.mac (ε := TlsError) (1#8 :: zeros 31) (m ++ [b]) = .ok (leBytes 16 F) := by
      intro b
      unfold Poly1305.mac slice
      rw [if_pos (by simp [zeros]), if_pos (by simp [zeros])]
      simp only [Res.ok_bind]
      rw [hr, hs, List.length_append, hm, List.length_singleton, hN,
        ChaChaProof.mac_fold 1 (m ++ [b]) N (by rw [List.length_append, hm, List.length_singleton]; omega), hmap b]
      simp only [Res.ok_bind, Nat.add_zero, ChaChaProof.resize_leBytes]
      rw [hF]
    have hspec : ∀ b : Byte, Spec.ChaCha.mac (1#8 :: zeros 31) (m ++ [b]) = leBytes 16 ((F + (b.toNat + 256)) % Spec.ChaCha.p) := by
      intro b
      have hr' : Spec.ChaCha.clamp (leNat ((1#8 :: zeros 31).take 16)) = 1 := by decide +kernel
      have hs' : leNat (((1#8 :: zeros 31).drop 16).take 16) = 0 := by decide +kernel
      unfold Spec.ChaCha.mac
      simp only []
      rw [hr', hs', Nat.add_zero, Spec.ChaCha.accumulate, chunks, List.length_append, hm, List.length_singleton,
        show (16 * N + 1 + (16 - 1)) / 16 = N + 1 from by omega, List.range_succ, List.map_append, List.foldl_append, hmap b, ← hF]
      simp only [List.map_cons, List.map_nil, List.foldl_cons, List.foldl_nil, Nat.mul_one]
      rw [List.drop_append_of_le_length (by omega), List.drop_of_length_le (by omega)]
      simp [leNat]
    have e0 := h (1#8 :: zeros 31) (m ++ [0#8]) (by simp [zeros])
    have e1 := h (1#8 :: zeros 31) (m ++ [1#8]) (by simp [zeros])
    rw [hmod, hspec] at e0 e1
    simp only [Res.ok.injEq] at e0 e1
    rw [e0] at e1
    have e2 := congrArg leNat e1
    rw [leNat_leBytes, leNat_leBytes] at e2
    refine succ_mod_mod_ne Spec.ChaCha.p (256 ^ 16) (F + (0 + 256)) (by decide +kernel) (by decide +kernel) (by decide +kernel) ?_
    exact e2
  generalize 2 ^ 20 = N at hf
  exact key (zeros (16 * N)) N (by simp [zeros]) hf

/-! ### C15, C16 -/

/-- Key and nonce have the sizes the suite prescribes. -/
def SuiteKeys (cs : CipherSuite) (key iv : Bytes) : Prop := key.length = cs.getKeyAndIvLen.1 ∧ iv.length = cs.getKeyAndIvLen.2

/-- C15: for every suite that has a cipher: encryption of up to 2^24 - 46 bytes (with the additional data) succeeds with a ciphertext of the
plaintext's length and a 16-byte tag, and decrypting them under the same key, nonce and additional data returns the plaintext. -/
theorem C15_aead_round_trip (cs : CipherSuite) (c : Cipher) (hc : cs.getCipher = .ok c) (key iv plaintext aad : Bytes)
    (hk : SuiteKeys cs key iv) (hlen : aad.length + plaintext.length + 46 ≤ 2 ^ 24) :
    ∃ ct tag, c.encrypt key iv plaintext aad = .ok (ct, tag) ∧ ct.length = plaintext.length ∧ tag.length = 16 ∧
      c.decrypt key iv ct aad tag = .ok plaintext := by
  have gcm : ∀ cs', (key.length = 16 ∨ key.length = 24 ∨ key.length = 32) → iv.length = 12 →
      ∃ ct tag, (Cipher.gcm cs').encrypt key iv plaintext aad = .ok (ct, tag) ∧ ct.length = plaintext.length ∧ tag.length = 16 ∧
      (Cipher.gcm cs').decrypt key iv ct aad tag = .ok plaintext := by
    intro cs' h1 h2
    have e := CipherProof.gcm_encrypt_eq key iv plaintext aad h1 h2 (by omega) (by omega)
    have hl := CipherProof.gcm_lengths key iv plaintext aad
    refine ⟨_, _, e, hl.1, hl.2, ?_⟩
    exact (CipherProof.gcm_inverse key iv plaintext _ aad _ h1 h2 (by omega) (lt_of_eq_of_lt hl.1 (by omega)) (by omega)).2 e
  cases cs <;> simp only [CipherSuite.getCipher, Res.ok.injEq, reduceCtorEq] at hc <;> subst hc <;>
    simp only [SuiteKeys, CipherSuite.getKeyAndIvLen] at hk
  · exact gcm _ (Or.inr (Or.inr hk.1)) hk.2
  · obtain ⟨ct, _, h1, h2⟩ := CipherProof.poly_encrypt_ok key iv plaintext aad hk.1 hk.2 hlen
    exact ⟨ct, _, h2, h1, CipherProof.tag_length _ _ _ _, (CipherProof.poly_inverse key iv plaintext ct aad _ hk.1 hk.2).2 h2⟩
  · exact gcm _ (Or.inl hk.1) hk.2

example : ∃ c, CipherSuite.getCipher .chacha20Poly1305Sha256 = .ok c ∧ SuiteKeys .chacha20Poly1305Sha256 (zeros 32) (zeros 12) :=
  ⟨_, rfl, by decide, by decide⟩

/-- C16: decryption returns a plaintext only if encrypting this plaintext yields exactly the presented ciphertext and tag; in every other
case (wrong tag, tag of a wrong length, modified ciphertext or additional data) the outcome is the error `BadRecordMac`, without data. -/
theorem C16_only_right_tag (cs : CipherSuite) (c : Cipher) (hc : cs.getCipher = .ok c) (key iv ct aad tag : Bytes)
    (hk : SuiteKeys cs key iv) (hlen : aad.length + ct.length + 46 ≤ 2 ^ 24) :
    (∃ p, c.decrypt key iv ct aad tag = .ok p ∧ c.encrypt key iv p aad = .ok (ct, tag) ∧ p.length = ct.length) ∨
    (c.decrypt key iv ct aad tag = .err .badRecordMac ∧ ∀ p : Bytes, p.length < 2 ^ 61 → c.encrypt key iv p aad ≠ .ok (ct, tag)) := by
  have gcm : ∀ cs', (key.length = 16 ∨ key.length = 24 ∨ key.length = 32) → iv.length = 12 →
      (∃ p, (Cipher.gcm cs').decrypt key iv ct aad tag = .ok p ∧ (Cipher.gcm cs').encrypt key iv p aad = .ok (ct, tag) ∧
        p.length = ct.length) ∨
      ((Cipher.gcm cs').decrypt key iv ct aad tag = .err .badRecordMac ∧
        ∀ p : Bytes, p.length < 2 ^ 61 → (Cipher.gcm cs').encrypt key iv p aad ≠ .ok (ct, tag)) := by
    intro cs' h1 h2
    have hinv := fun p (hp : p.length < 2 ^ 61) => CipherProof.gcm_inverse key iv p ct aad tag h1 h2 (by omega) (by omega) hp
    rcases CipherProof.gcm_dichotomy key iv ct aad tag h1 h2 (by omega) (by omega) with ⟨p, hl, hd⟩ | he
    · exact Or.inl ⟨p, hd, (hinv p (by omega)).1 hd, hl⟩
    · refine Or.inr ⟨he, fun p hp h => ?_⟩
      have := (hinv p hp).2 h
      rw [he] at this; cases this
  cases cs <;> simp only [CipherSuite.getCipher, Res.ok.injEq, reduceCtorEq] at hc <;> subst hc <;>
    simp only [SuiteKeys, CipherSuite.getKeyAndIvLen] at hk
  · exact gcm _ (Or.inr (Or.inr hk.1)) hk.2
  · rcases CipherProof.poly_dichotomy key iv ct aad tag hk.1 hk.2 hlen with ⟨p, hl, hd⟩ | he
    · exact Or.inl ⟨p, hd, (CipherProof.poly_inverse key iv p ct aad tag hk.1 hk.2).1 hd, hl⟩
    · refine Or.inr ⟨he, fun p _ h => ?_⟩
      have := (CipherProof.poly_inverse key iv p ct aad tag hk.1 hk.2).2 h
      change Poly1305.decrypt key iv ct aad tag = .err .badRecordMac at he
      rw [he] at this; cases this
  · exact gcm _ (Or.inl hk.1) hk.2

/-- C16, a wrong tag: a forged 15-byte tag is refused. -/
example : Gcm.decrypt (zeros 16) (zeros 12) [0x03, 0x88] [] (zeros 15) = .err .badRecordMac := by decide +kernel

end ATLS
