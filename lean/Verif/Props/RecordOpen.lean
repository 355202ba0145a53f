import Verif.Props.Stream
/-
C61-C63: opening protected records received from a peer.
-/
namespace ATLS
open ATLS.Spec ATLS.Model ATLS.KsProof ATLS.RecProof

/-- An endpoint that can read one more record of the suite. -/
structure Readable (cs : CipherSuite) (p : RecordPayloadProtection) : Prop where
  cipher : cs.getCipher = .ok p.cipher
  sizes : (rKey p).key.length = cs.getKeyAndIvLen.1 ∧ (rKey p).iv.length = 12
  seq : (rKey p).sequenceNumber.toNat < 2 ^ 64 - 1

theorem Readable.ne {cs : CipherSuite} {p : RecordPayloadProtection} (h : Readable cs p) :
    (rKey p).sequenceNumber ≠ BitVec.allOnes 64 := by
  intro e
  have := h.seq
  rw [e] at this
  simp at this

/-- RFC 8446 B.1: the content types. -/
def Spec.Tls13.contentTypes : List (Nat × RecordType) :=
  [(0, .invalid), (20, .changeCipherSpec), (21, .alert), (22, .handshake), (23, .applicationData)]

/-- C61: the code by which the claims name a content type is the one of RFC 8446 B.1. -/
theorem C61_type_codes (t : RecordType) : (t.code.toNat, t) ∈ Tls13.contentTypes := by cases t <;> decide

/-- C61 for the inner lengths satisfying `ok`: a record any RFC 8446 peer may send (content of a type, any number of padding zeros, within the
record limit), followed by anything, is parsed and opened to that type and content. -/
def C61_for (ok : CipherSuite → Nat → Prop) : Prop :=
  ∀ (cs : CipherSuite) (a : Tls13.Aead) (p : RecordPayloadProtection) (t : RecordType) (content rest : Bytes) (padding : Nat),
    rfcAead cs = some a → Readable cs p → t ≠ .invalid → content.length + padding ≤ 2 ^ 14 → ok cs (content.length + 1 + padding) →
    ∃ n r p', Record.fromRaw (Tls13.protectedRecord a (rKey p).key (rKey p).iv (rKey p).sequenceNumber.toNat t.code content padding ++ rest) =
        .ok (n, r) ∧ n = content.length + padding + 22 ∧ p.decrypt r = (.ok (t, content), p')

/-- C61 in full. -/
def C61_statement : Prop := C61_for fun _ _ => True

namespace RecProof

/-- `decrypt` when the AEAD accepts. -/
theorem decrypt_open (p q : RecordPayloadProtection) (r : Record) (ct tag pl key nonce : Bytes) (hf : r.fraqment = ct ++ tag)
    (ht : tag.length = 16) (hq : p.readNonce = .ok (nonce, key, q)) (hd : p.cipher.decrypt key nonce ct r.header tag = .ok pl) :
    p.decrypt r = (do
      let x ← RecordPayloadProtection.scanType pl pl.length
      .ok (x.1, pl.take x.2), q) := by
  unfold RecordPayloadProtection.decrypt
  rw [if_neg (by rw [hf, List.length_append]; omega)]
  have h1 : r.fraqment.take (r.fraqment.length - 16) = ct := by rw [hf, List.length_append, ht, Nat.add_sub_cancel]; simp
  have h2 : r.fraqment.drop ct.length = tag := by rw [hf]; simp
  simp only [h1, h2, hq, hd]

theorem new_nonzero (b : Byte) (t : RecordType) (hb : b ≠ 0#8) (h : RecordType.new b = .ok t) : t.code = b ∧ t ≠ .invalid := by
  unfold RecordType.new at h
  rw [if_neg hb] at h
  split_ifs at h with h1 h2 h3 h4 <;> cases h
  · exact ⟨h1.symm, by decide⟩
  · exact ⟨h2.symm, by decide⟩
  · exact ⟨h3.symm, by decide⟩
  · exact ⟨h4.symm, by decide⟩

/-- The RFC's record is what the code's own encryption would produce, except for ChaCha20 at multiples of 64. -/
theorem sealed_rfc (cs : CipherSuite) (a : Tls13.Aead) (c : Cipher) (k : Key) (ha : rfcAead cs = some a) (hci : cs.getCipher = .ok c)
    (hsz : k.key.length = cs.getKeyAndIvLen.1 ∧ k.iv.length = 12) (t : RecordType) (f : Bytes) (n : Nat) (hl : f.length + n ≤ 2 ^ 16)
    (hx : cs = .chacha20Poly1305Sha256 → (f.length + 1 + n) % 64 ≠ 0) :
    Sealed c k t f n (Tls13.protectedRecord a k.key k.iv k.sequenceNumber.toNat t.code f n) := by
  have hnl := nonce_length k.iv k.sequenceNumber.toNat hsz.2
  have hlen : (f ++ [t.code] ++ zeros n).length = f.length + 1 + n := by simp; omega
  have mk : ∀ ct tag : Bytes, a.encrypt k.key (Tls13.nonce k.iv k.sequenceNumber.toNat) (f ++ [t.code] ++ zeros n)
      ([23#8, 3#8, 3#8] ++ beBytes 2 (f.length + 1 + n + 16)) = (ct, tag) →
      c.encrypt k.key (Tls13.nonce k.iv k.sequenceNumber.toNat) (f ++ [t.code] ++ zeros n)
      ([23#8, 3#8, 3#8] ++ beBytes 2 (f.length + 1 + n + 16)) = .ok (ct, tag) → ct.length = f.length + 1 + n → tag.length = 16 →
      Sealed c k t f n (Tls13.protectedRecord a k.key k.iv k.sequenceNumber.toNat t.code f n) := by
    intro ct tag h1 h2 h3 h4
    refine ⟨ct, tag, ?_, h2, h3, h4⟩
    unfold Tls13.protectedRecord
    simp only [hlen, Tls13.protectedHeader]
    rw [h1]
    simp
  cases cs <;> simp only [rfcAead, Option.some.injEq, reduceCtorEq] at ha <;> subst ha <;>
    simp only [CipherSuite.getCipher, Res.ok.injEq, CipherSuite.getKeyAndIvLen] at hci hsz <;> subst hci
  · have hg := CipherProof.gcm_lengths k.key (Tls13.nonce k.iv k.sequenceNumber.toNat) (f ++ [t.code] ++ zeros n)
      ([23#8, 3#8, 3#8] ++ beBytes 2 (f.length + 1 + n + 16))
    exact mk _ _ rfl (C12_gcm_sp800_38d _ _ _ _ (Or.inr (Or.inr hsz.1)) hnl (by simp) (by simp; omega)) (hg.1.trans hlen) hg.2
  · obtain ⟨ct, hc1, hcl, hc2⟩ := CipherProof.poly_encrypt_ok k.key (Tls13.nonce k.iv k.sequenceNumber.toNat)
      (f ++ [t.code] ++ zeros n) ([23#8, 3#8, 3#8] ++ beBytes 2 (f.length + 1 + n + 16)) hsz.1 hnl (by simp; omega)
    rw [C13_chacha20_partial _ _ _ 1 hsz.1 hnl (by rw [hlen]; omega) (Or.inl (by rw [hlen]; exact hx rfl))] at hc1
    simp only [Res.ok.injEq] at hc1
    refine mk ct _ ?_ hc2 (by rw [hcl, hlen]) (CipherProof.tag_length _ _ _ _)
    simp only [Tls13.Aead.encrypt, ChaCha.aeadEncrypt, hc1]
  · have hg := CipherProof.gcm_lengths k.key (Tls13.nonce k.iv k.sequenceNumber.toNat) (f ++ [t.code] ++ zeros n)
      ([23#8, 3#8, 3#8] ++ beBytes 2 (f.length + 1 + n + 16))
    exact mk _ _ rfl (C12_gcm_sp800_38d _ _ _ _ (Or.inl hsz.1) hnl (by simp) (by simp; omega)) (hg.1.trans hlen) hg.2

end RecProof

/-- C61 for AES-GCM and, with ChaCha20-Poly1305, for inner plaintexts whose length is not a multiple of 64. Missing: those ChaCha20 records, which
are opened to wrong bytes (`C61_false`). -/
theorem C61_padding_partial : C61_for fun cs len => cs = .chacha20Poly1305Sha256 → len % 64 ≠ 0 := by
  intro cs a p t content rest padding ha h ht hl hx
  obtain ⟨r, p', h1, _, _, h2, h3, _⟩ := decrypt_spec cs p h.cipher h.sizes h.ne t ht content padding _ rest (by omega)
    (sealed_rfc cs a p.cipher (rKey p) ha h.cipher h.sizes t content padding (by omega) hx)
  refine ⟨_, r, p', h1, ?_, h3⟩
  obtain ⟨ct, tag, hw, _, hl1, hl2⟩ := sealed_rfc cs a p.cipher (rKey p) ha h.cipher h.sizes t content padding (by omega) hx
  rw [hw]; simp [hl1, hl2]; omega

example : ∃ p, Readable .aes256GcmSha384 p := by
  obtain ⟨w, hf, _, _⟩ := new_ok ⟨⟨.sha384, []⟩, ⟨.sha384, []⟩, ⟨.sha384, []⟩⟩ (.gcm .aes256GcmSha384) true
  refine ⟨⟨⟨⟨.sha384, []⟩, ⟨.sha384, []⟩, ⟨.sha384, []⟩⟩, .gcm .aes256GcmSha384, w, true, none⟩, rfl, ⟨hf.1.1, hf.1.2.1⟩, ?_⟩
  show w.server.sequenceNumber.toNat < 2 ^ 64 - 1
  rw [hf.1.2.2]; decide

/-- C61 is false for ChaCha20-Poly1305: the 63 zero bytes of application data sent by an RFC 8439 peer under the all-zero key are not what comes
out. -/
theorem C61_false : ¬ C61_statement := by
  intro hst
  obtain ⟨n, r, p', h1, h2, h3⟩ := hst .chacha20Poly1305Sha256 .chacha20Poly1305 (zeroProt true) .applicationData (zeros 63) [] 0 rfl
    ⟨rfl, ⟨by decide, by decide⟩, by decide⟩ (by decide) (by decide) trivial
  have hk : rKey (zeroProt true) = ⟨[], zeros 32, zeros 12, 0⟩ := rfl
  have hn : Tls13.nonce (zeros 12) (BitVec.toNat (0 : BitVec 64)) = zeros 12 := by decide
  obtain ⟨inner, hinner⟩ : ∃ inner : Bytes, inner = zeros 63 ++ [23#8] ++ zeros 0 := ⟨_, rfl⟩
  have hil : inner.length = 64 := by rw [hinner]; rfl
  have hi0 : inner[0]? = some 0#8 := by rw [hinner]; rfl
  obtain ⟨ct, hct⟩ : ∃ ct, ct = Spec.ChaCha.encrypt (zeros 32) 1 (zeros 12) inner := ⟨_, rfl⟩
  have hctl : ct.length = 64 := by rw [hct]; simp [Spec.ChaCha.encrypt, hil]
  obtain ⟨tag, htag⟩ : ∃ tag, tag = Spec.ChaCha.tag (zeros 32) (zeros 12) (Tls13.protectedHeader 64) ct := ⟨_, rfl⟩
  have htl : tag.length = 16 := by rw [htag]; exact CipherProof.tag_length _ _ _ _
  have hrec : Tls13.protectedRecord .chacha20Poly1305 (zeros 32) (zeros 12) (BitVec.toNat (0 : BitVec 64)) 23#8 (zeros 63) 0 =
      [RecordType.applicationData.code, 3#8, 3#8, BitVec.ofNat 8 ((ct ++ tag).length / 256), BitVec.ofNat 8 (ct ++ tag).length] ++ (ct ++ tag) := by
    unfold Tls13.protectedRecord
    simp only [Tls13.Aead.encrypt, ChaCha.aeadEncrypt]
    rw [← hinner, hn, hil, ← hct, ← htag, List.length_append, hctl, htl]
    simp only [List.append_assoc]
    rfl
  rw [hk] at h1
  simp only [RecordType.code] at h1
  rw [hrec, fromRaw_header .applicationData 3#8 3#8 (ct ++ tag) [] (by rw [List.length_append, hctl, htl]; decide)] at h1
  simp only [Res.ok.injEq, Prod.mk.injEq] at h1
  obtain ⟨_, hr⟩ := h1
  -- what the code computes
  have hdec : Poly1305.decrypt (zeros 32) (zeros 12) ct (Tls13.protectedHeader 64) tag = .ok ct := by
    refine (CipherProof.poly_inverse (zeros 32) (zeros 12) ct ct _ tag (by decide) (by decide)).2 ?_
    obtain ⟨c', e1, _, e2⟩ := CipherProof.poly_encrypt_ok (zeros 32) (zeros 12) ct (Tls13.protectedHeader 64) (by decide) (by decide)
      (by rw [hctl]; decide)
    have := ChaChaProof.encrypt_multiple ct (zeros 32) (zeros 12) (by decide) (by decide) 1 (by omega) (by omega)
    rw [e1, hctl] at this
    simp only [Res.ok.injEq] at this
    have hcc : c' = ct := by rw [this]; simp [Spec.ChaCha.encrypt]
    rw [e2, hcc, htag]
  have hsc : ct[0]? = some 0x9f#8 := by
    have h3 : Model.ChaCha.encrypt (zeros 1) (zeros 32) (zeros 12) 1 = .ok [0x9f] := by decide +kernel
    rw [C13_chacha20_partial _ _ _ _ (by decide) (by decide) (by decide) (Or.inl (by decide))] at h3
    simp only [Res.ok.injEq] at h3
    have g1 := congrArg (fun l : Bytes => l[0]?) h3
    rw [hct]
    simp only [Spec.ChaCha.encrypt, List.getElem?_mapIdx] at g1 ⊢
    rw [hi0]
    exact g1
  obtain ⟨q, hq, _⟩ := readNonce_eq (zeroProt true) (by decide) (by decide)
  rw [hk] at hq
  rw [show Tls13.nonce (⟨[], zeros 32, zeros 12, 0⟩ : Key).iv (BitVec.toNat (⟨[], zeros 32, zeros 12, 0⟩ : Key).sequenceNumber) = zeros 12 from hn] at hq
  have hhd : ([RecordType.applicationData.code, 3#8, 3#8, BitVec.ofNat 8 ((ct ++ tag).length / 256), BitVec.ofNat 8 (ct ++ tag).length] : Bytes) =
      Tls13.protectedHeader 64 := by rw [List.length_append, hctl, htl]; rfl
  rw [hhd] at hr
  have hop := decrypt_open (zeroProt true) q r ct tag ct (zeros 32) (zeros 12) (by rw [← hr]) htl hq (by rw [← hr]; exact hdec)
  rw [hop] at h3
  simp only [Prod.mk.injEq] at h3
  obtain ⟨x, hx1, hx2⟩ := Res.bind_eq_ok.1 h3.1
  simp only [Res.ok.injEq, Prod.mk.injEq] at hx2
  have := congrArg (fun l : Bytes => l[0]?) hx2.2
  replace this : (ct.take x.2)[0]? = (zeros 63)[0]? := this
  have hpos : 0 < x.2 := by
    rcases Nat.eq_zero_or_pos x.2 with h0 | h0
    · rw [h0] at hx2; have := congrArg List.length hx2.2; simp at this
    · exact h0
  rw [List.getElem?_take, if_pos hpos, hsc] at this
  revert this; decide

/-! ### C62 -/

/-- C62: whatever record arrives, if the endpoint delivers content from it, then the record's body is exactly the AEAD encryption, under the
peer's key and the nonce of the current sequence number and with the record's header as additional data, of that content followed by its
non-zero type byte and zeros (or of nothing but zeros, reported as content type "invalid"). In particular nothing else on the wire is
delivered: modified, reordered, replayed or cross-direction records would have to be encryptions under that very nonce. -/
theorem C62_only_authentic (cs : CipherSuite) (p p' : RecordPayloadProtection) (h : Readable cs p) (r : Record)
    (hr : r.header.length = 5 ∧ r.fraqment.length < 2 ^ 16) (t : RecordType) (content : Bytes) (hd : p.decrypt r = (.ok (t, content), p')) :
    ∃ (ct tag inner : Bytes), r.fraqment = ct ++ tag ∧ tag.length = 16 ∧
      p.cipher.encrypt (rKey p).key (Tls13.nonce (rKey p).iv (rKey p).sequenceNumber.toNat) inner r.header = .ok (ct, tag) ∧
      inner.length = ct.length ∧
      ((t ≠ .invalid ∧ ∃ n, inner = content ++ [t.code] ++ zeros n) ∨ (t = .invalid ∧ content = [] ∧ ∃ n, inner = zeros n)) := by
  unfold RecordPayloadProtection.decrypt at hd
  rcases Nat.lt_or_ge r.fraqment.length 16 with h16 | h16
  · rw [if_pos h16] at hd; cases hd
  rw [if_neg (by omega)] at hd
  obtain ⟨q, hq, _⟩ := readNonce_eq p h.sizes.2 h.ne
  rw [hq] at hd
  simp only [] at hd
  have hlt : (r.fraqment.take (r.fraqment.length - 16)).length = r.fraqment.length - 16 := by rw [List.length_take]; omega
  rcases C16_only_right_tag cs p.cipher h.cipher (rKey p).key (Tls13.nonce (rKey p).iv (rKey p).sequenceNumber.toNat)
    (r.fraqment.take (r.fraqment.length - 16)) r.header (r.fraqment.drop (r.fraqment.take (r.fraqment.length - 16)).length)
    (suiteKeys h.sizes _) (by rw [hlt]; omega) with ⟨pl, e1, e2, e3⟩ | ⟨e1, _⟩
  · rw [e1] at hd
    simp only [Prod.mk.injEq] at hd
    obtain ⟨x, hx1, hx2⟩ := Res.bind_eq_ok.1 hd.1
    simp only [Res.ok.injEq, Prod.mk.injEq] at hx2
    refine ⟨_, _, pl, ?_, ?_, e2, e3, ?_⟩
    · rw [hlt]; exact (List.take_append_drop _ _).symm
    · rw [hlt, List.length_drop]; omega
    · have scan : ∀ (k : Nat) (y : RecordType × Nat), k ≤ pl.length → RecordPayloadProtection.scanType pl k = .ok y →
          pl.drop k = zeros (pl.length - k) →
          (y.1 ≠ .invalid ∧ ∃ n, pl = pl.take y.2 ++ [y.1.code] ++ zeros n) ∨ (y.1 = .invalid ∧ y.2 = 0 ∧ ∃ n, pl = zeros n) := by
        intro k
        induction k with
        | zero =>
          intro y _ hy hz
          simp only [RecordPayloadProtection.scanType, Res.ok.injEq] at hy
          subst hy
          exact Or.inr ⟨rfl, rfl, _, by simpa using hz⟩
        | succ k ih =>
          intro y hk hy hz
          rw [RecordPayloadProtection.scanType] at hy
          have hik : idx (ε := TlsError) pl k = .ok pl[k] := by unfold idx; rw [List.getElem?_eq_getElem hk]
          rw [hik] at hy
          simp only [Res.ok_bind] at hy
          have hdrop : pl.drop k = pl[k] :: pl.drop (k + 1) := List.drop_eq_getElem_cons hk
          split_ifs at hy with h0
          · obtain ⟨tt, g1, g2⟩ := Res.bind_eq_ok.1 hy
            simp only [Res.ok.injEq] at g2
            subst g2
            have hcode : tt.code = pl[k] ∧ tt ≠ .invalid := new_nonzero _ _ h0 g1
            refine Or.inl ⟨hcode.2, pl.length - (k + 1), ?_⟩
            simp only [hcode.1]
            conv_lhs => rw [← List.take_append_drop k pl, hdrop, hz]
            rw [List.append_assoc]; rfl
          · refine ih y (by omega) hy ?_
            rw [hdrop, hz, show pl.length - k = (pl.length - (k + 1)) + 1 by omega, zeros_succ]
            simpa using h0
      rcases scan pl.length x (le_refl _) hx1 (by simp) with ⟨g1, n, g2⟩ | ⟨g1, g0, n, g2⟩
      · exact Or.inl ⟨by rw [← hx2.1]; exact g1, n, by rw [← hx2.1, ← hx2.2]; exact g2⟩
      · exact Or.inr ⟨by rw [← hx2.1]; exact g1, by rw [← hx2.2, g0]; rfl, n, g2⟩
  · rw [e1] at hd
    cases hd

/-! ### C63 -/

/-- C63 in full: processing a protected record from the peer always returns. -/
def C63_statement : Prop :=
  ∀ (cs : CipherSuite) (p : RecordPayloadProtection) (buf : Bytes) (n : Nat) (r : Record), Readable cs p →
    Record.fromRaw buf = .ok (n, r) → (p.decrypt r).1.returns

/-- C63 for records with a body of at least 16 bytes. Missing: shorter bodies, on which the code always panics (`C63_short_panics`). -/
theorem C63_returns_partial (cs : CipherSuite) (p : RecordPayloadProtection) (h : Readable cs p) (r : Record)
    (hr : r.header.length = 5 ∧ 16 ≤ r.fraqment.length ∧ r.fraqment.length < 2 ^ 16) : (p.decrypt r).1.returns := by
  obtain ⟨res, p', h1, h2, _⟩ := decrypt_any cs p h.cipher h.sizes h.ne r hr.2.1 (by omega)
  rw [h1]; exact h2

example : Readable .chacha20Poly1305Sha256 (zeroProt true) := ⟨rfl, ⟨by decide, by decide⟩, by decide⟩

/-- Every protected record with a body shorter than the tag makes the receiver panic. -/
theorem C63_short_panics (p : RecordPayloadProtection) (r : Record) (h : r.fraqment.length < 16) : (p.decrypt r).1 = .panic := by
  unfold RecordPayloadProtection.decrypt
  rw [if_pos h]

/-- C63 is false: one unauthenticated record with an empty body is enough. -/
theorem C63_false : ¬ C63_statement := by
  intro hst
  have := hst .chacha20Poly1305Sha256 (zeroProt true) [23, 3, 3, 0, 0] 5 ⟨.applicationData, 0x0303, 0, [23, 3, 3, 0, 0], []⟩
    ⟨rfl, ⟨by decide, by decide⟩, by decide⟩ (by decide +kernel)
  rw [C63_short_panics _ _ (by simp)] at this
  exact this

end ATLS
