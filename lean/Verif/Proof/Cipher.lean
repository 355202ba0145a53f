import Verif.Model.Cipher
import Verif.Proof.Gcm
import Verif.Proof.ChaCha
/-
The two AEADs behind `Cipher`.
-/
namespace ATLS.CipherProof
open ATLS ATLS.Model ATLS.Spec ATLS.GcmProof

theorem xorBytes_self (c k : Bytes) (h : c.length ≤ k.length) : xorBytes (xorBytes c k) k = c := by
  apply List.ext_getElem (by simp [xorBytes]; omega)
  intro i h1 h2
  simp [xorBytes, BitVec.xor_assoc]

theorem gctr_involutive (E : Bytes → Bytes) (hEl : ∀ b, (E b).length = 16) (x : Bytes) (CB : BitVec 128) :
    Spec.Gcm.gctr E CB (Spec.Gcm.gctr E CB x) = x := by
  induction x using chunk_induction 16 (by decide) generalizing CB with
  | nil => simp [Spec.Gcm.gctr, Spec.Gcm.gctrBlocks]
  | step x hx ih =>
    have hp := List.length_pos_iff.mpr hx
    have hg : ∀ CB, Spec.Gcm.gctr E CB [] = [] := by intro CB; simp [Spec.Gcm.gctr, Spec.Gcm.gctrBlocks]
    have hl : (xorBytes (x.take 16) (E (Spec.Gcm.ofBlock CB))).length = min 16 x.length := by
      rw [xorBytes_length, hEl, List.length_take]; omega
    have hne : Spec.Gcm.gctr E CB x ≠ [] := by
      intro h0
      have := gctrBlocks_length E hEl x CB
      rw [h0] at this; simp at this; omega
    rw [gctr_step E _ hne]
    have e := gctr_step E x hx CB
    have e1 : (Spec.Gcm.gctr E CB x).take 16 = xorBytes (x.take 16) (E (Spec.Gcm.ofBlock CB)) := by
      rw [e]
      by_cases h16 : 16 ≤ x.length
      · rw [List.take_append_of_le_length (by rw [hl]; omega), List.take_of_length_le (by rw [hl]; omega)]
      · rw [List.drop_of_length_le (by omega : x.length ≤ 16), hg, List.append_nil, List.take_of_length_le (by rw [hl]; omega)]
    have e2 : (Spec.Gcm.gctr E CB x).drop 16 = Spec.Gcm.gctr E (Spec.Gcm.inc32 CB) (x.drop 16) := by
      rw [e]
      by_cases h16 : 16 ≤ x.length
      · rw [List.drop_append_of_le_length (by rw [hl]; omega), List.drop_of_length_le (by rw [hl]; omega), List.nil_append]
      · rw [List.drop_of_length_le (by omega : x.length ≤ 16), hg, List.append_nil, List.drop_of_length_le (by rw [hl]; omega)]
    rw [e1, e2, ih, xorBytes_self _ _ (by rw [hEl, List.length_take]; omega), List.take_append_drop]

theorem gcm_encrypt_eq (key iv p aad : Bytes) (hk : key.length = 16 ∨ key.length = 24 ∨ key.length = 32) (hiv : iv.length = 12)
    (hm : aad.length < 2 ^ 61) (hn : p.length < 2 ^ 61) :
    Model.Gcm.encrypt key iv p aad = .ok (Spec.Gcm.encrypt (Spec.Aes.aes key) iv p aad) := by
  unfold Model.Gcm.encrypt
  rw [gcm_eq key iv p aad hk hiv true hm hn]; rfl

theorem gcm_decrypt_eq (key iv c aad t : Bytes) (hk : key.length = 16 ∨ key.length = 24 ∨ key.length = 32) (hiv : iv.length = 12)
    (hm : aad.length < 2 ^ 61) (hn : c.length < 2 ^ 61) :
    Model.Gcm.decrypt key iv c aad t = Res.okOr .badRecordMac (Spec.Gcm.decrypt (Spec.Aes.aes key) iv c aad t) := by
  unfold Model.Gcm.decrypt
  rw [gcm_eq key iv c aad hk hiv false hm hn]
  simp only [Res.ok_bind, Spec.Gcm.decrypt, Bool.false_eq_true, if_false]
  by_cases h : t = Spec.Gcm.tag (Spec.Aes.aes key) iv c aad
  · rw [if_neg (fun hh => hh h.symm), if_pos h]; rfl
  · rw [if_pos (fun hh => h hh.symm), if_neg h]; rfl

theorem gcm_lengths (key iv p aad : Bytes) :
    (Spec.Gcm.encrypt (Spec.Aes.aes key) iv p aad).1.length = p.length ∧ (Spec.Gcm.encrypt (Spec.Aes.aes key) iv p aad).2.length = 16 := by
  refine ⟨gctrBlocks_length _ (aes_length key) _ _, ?_⟩
  unfold Spec.Gcm.encrypt Spec.Gcm.tag
  simp only []
  rw [gctrBlocks_length _ (aes_length key)]; simp [Spec.Gcm.ofBlock]

/-- Encryption and decryption with GCM are inverse relations. -/
theorem gcm_inverse (key iv p c aad t : Bytes) (hk : key.length = 16 ∨ key.length = 24 ∨ key.length = 32) (hiv : iv.length = 12)
    (hm : aad.length < 2 ^ 61) (hn : c.length < 2 ^ 61) (hp : p.length < 2 ^ 61) :
    Model.Gcm.decrypt key iv c aad t = .ok p ↔ Model.Gcm.encrypt key iv p aad = .ok (c, t) := by
  rw [gcm_decrypt_eq key iv c aad t hk hiv hm hn, gcm_encrypt_eq key iv p aad hk hiv hm hp]
  unfold Spec.Gcm.decrypt Spec.Gcm.encrypt
  simp only []
  constructor
  · intro h
    by_cases ht : t = Spec.Gcm.tag (Spec.Aes.aes key) iv c aad
    · rw [if_pos ht] at h
      simp only [Res.okOr, Res.ok.injEq] at h
      subst h
      rw [gctr_involutive _ (aes_length key), ← ht]
    · rw [if_neg ht] at h; cases h
  · intro h
    simp only [Res.ok.injEq, Prod.mk.injEq] at h
    obtain ⟨h1, h2⟩ := h
    rw [if_pos (by rw [← h2, h1]), ← h1, gctr_involutive _ (aes_length key)]; rfl

theorem gcm_dichotomy (key iv c aad t : Bytes) (hk : key.length = 16 ∨ key.length = 24 ∨ key.length = 32) (hiv : iv.length = 12)
    (hm : aad.length < 2 ^ 61) (hn : c.length < 2 ^ 61) :
    (∃ p : Bytes, p.length = c.length ∧ Model.Gcm.decrypt key iv c aad t = .ok p) ∨ Model.Gcm.decrypt key iv c aad t = .err .badRecordMac := by
  rw [gcm_decrypt_eq key iv c aad t hk hiv hm hn]
  unfold Spec.Gcm.decrypt
  simp only []
  split
  · exact Or.inl ⟨_, gctrBlocks_length _ (aes_length key) _ _, rfl⟩
  · exact Or.inr rfl

/-! ### ChaCha20-Poly1305 -/

theorem poly_inverse (key iv p c aad t : Bytes) (hk : key.length = 32) (hiv : iv.length = 12) :
    Poly1305.decrypt key iv c aad t = .ok p ↔ Poly1305.encrypt key iv p aad = .ok (c, t) := by
  unfold Poly1305.decrypt Poly1305.encrypt
  rw [ChaChaProof.otk_eq key iv hk hiv]
  simp only [Res.ok_bind]
  constructor
  · intro h
    obtain ⟨tag, h1, h2⟩ := Res.bind_eq_ok.1 h
    by_cases ht : tag = t
    · rw [if_pos ht] at h2
      unfold ChaCha.decrypt at h2
      cases hc : Model.ChaCha.encrypt c key iv 1 with
      | ok p' =>
        rw [hc] at h2; cases h2
        have := ChaChaProof.encrypt_involutive _ _ _ _ hk hiv _ hc
        rw [this.1]
        simp only [Res.ok_bind, h1, ht]
      | err e => rw [hc] at h2; cases h2
      | panic => rw [hc] at h2; cases h2
    · rw [if_neg ht] at h2; cases h2
  · intro h
    cases hc : Model.ChaCha.encrypt p key iv 1 with
    | ok c' =>
      rw [hc] at h
      simp only [Res.ok_bind] at h
      obtain ⟨tag, h1, h2⟩ := Res.bind_eq_ok.1 h
      cases h2
      rw [h1]
      simp only [Res.ok_bind, if_true]
      unfold ChaCha.decrypt
      rw [(ChaChaProof.encrypt_involutive _ _ _ _ hk hiv _ hc).1]
    | err e => rw [hc] at h; cases h
    | panic => rw [hc] at h; cases h

theorem poly_encrypt_ok (key iv p aad : Bytes) (hk : key.length = 32) (hiv : iv.length = 12) (hlen : aad.length + p.length + 46 ≤ 2 ^ 24) :
    ∃ c, ChaCha.encrypt p key iv 1 = .ok c ∧ c.length = p.length ∧
      Poly1305.encrypt key iv p aad = .ok (c, Spec.ChaCha.tag key iv aad c) := by
  have h1 := ChaChaProof.encrypt_prefix p key iv hk hiv 1 (by omega)
  refine ⟨_, h1, by simp, ?_⟩
  unfold Poly1305.encrypt
  rw [h1]
  simp only [Res.ok_bind]
  have h2 := ChaChaProof.tag_eq (ε := TlsError) key iv (ChaChaProof.maskWith (fun i => if i < ChaChaProof.covered p.length then
        (Spec.ChaCha.block key (BitVec.ofNat 32 (1 + i / 64)) iv).getD (i % 64) 0 else 0#8) p) aad hk hiv (by simp; omega)
  obtain ⟨otk, e1, e2⟩ := Res.bind_eq_ok.1 h2
  rw [e1]
  simp only [Res.ok_bind]
  rw [e2]
  rfl

theorem poly_dichotomy (key iv c aad t : Bytes) (hk : key.length = 32) (hiv : iv.length = 12) (hlen : aad.length + c.length + 46 ≤ 2 ^ 24) :
    (∃ p : Bytes, p.length = c.length ∧ Poly1305.decrypt key iv c aad t = .ok p) ∨ Poly1305.decrypt key iv c aad t = .err .badRecordMac := by
  unfold Poly1305.decrypt
  have h2 := ChaChaProof.tag_eq (ε := TlsError) key iv c aad hk hiv hlen
  obtain ⟨otk, e1, e2⟩ := Res.bind_eq_ok.1 h2
  rw [e1]
  simp only [Res.ok_bind]
  rw [e2]
  simp only [Res.ok_bind]
  split
  · unfold ChaCha.decrypt
    rw [ChaChaProof.encrypt_prefix c key iv hk hiv 1 (by omega)]
    exact Or.inl ⟨_, by simp, rfl⟩
  · exact Or.inr rfl

theorem tag_length (key iv aad c : Bytes) : (Spec.ChaCha.tag key iv aad c).length = 16 := by
  simp [Spec.ChaCha.tag, Spec.ChaCha.mac]

end ATLS.CipherProof
