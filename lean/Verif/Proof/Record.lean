import Verif.Proof.KeySchedule
import Verif.Props.Cipher
/-
Lemmas on records and record protection.
-/
namespace ATLS.RecProof
open ATLS ATLS.Spec ATLS.Model ATLS.KsProof
open RecordPayloadProtection

theorem new_code (t : RecordType) : RecordType.new t.code = .ok t := by cases t <;> decide

theorem code_ne_zero {t : RecordType} (h : t ≠ .invalid) : t.code ≠ 0#8 := by cases t <;> first | exact absurd rfl h | decide

theorem len_bytes (n : Nat) (h : n < 2 ^ 16) : (BitVec.ofNat 8 (n / 256)).toNat * 256 + (BitVec.ofNat 8 n).toNat = n := by
  simp only [BitVec.toNat_ofNat]; omega

/-- Parsing a header followed by at least the promised number of bytes. -/
theorem fromRaw_header (t : RecordType) (v1 v2 : Byte) (f rest : Bytes) (h : f.length < 2 ^ 16) :
    Record.fromRaw ([t.code, v1, v2, BitVec.ofNat 8 (f.length / 256), BitVec.ofNat 8 f.length] ++ f ++ rest) =
      .ok (5 + f.length, ⟨t, v1.toNat * 256 + v2.toNat, f.length,
        [t.code, v1, v2, BitVec.ofNat 8 (f.length / 256), BitVec.ofNat 8 f.length], f⟩) := by
  unfold Record.fromRaw
  simp only [List.cons_append, List.nil_append, List.length_cons, List.length_append, idx, List.getElem?_cons_zero,
    List.getElem?_cons_succ, Res.ok_bind, new_code, len_bytes _ h, slice]
  rw [if_neg (by omega), if_neg (by omega), if_pos ⟨by omega, by omega⟩]
  simp only [Res.ok_bind]
  rw [if_pos ⟨by omega, by omega⟩]
  simp

/-- Exactly when record parsing panics. -/
theorem fromRaw_panic_iff (buf : Bytes) : Record.fromRaw buf = .panic ↔
    ∃ (t : RecordType) (v1 v2 l1 l2 : Byte) (rest : Bytes), buf = t.code :: v1 :: v2 :: l1 :: l2 :: rest ∧
      l1.toNat * 256 + l2.toNat ≤ rest.length + 3 ∧ rest.length < l1.toNat * 256 + l2.toNat := by
  constructor
  · intro h
    match buf, h with
    | [], h | [_], h | [_, _], h | [_, _, _], h | [_, _, _, _], h => simp [Record.fromRaw] at h
    | a :: b :: c :: d :: e :: rest, h =>
      unfold Record.fromRaw at h
      rw [if_neg (by simp)] at h
      simp only [idx, List.getElem?_cons_zero, List.getElem?_cons_succ, Res.ok_bind] at h
      cases ht : RecordType.new a with
      | panic =>
        unfold RecordType.new at ht; split_ifs at ht
      | err x => rw [ht] at h; cases h
      | ok t =>
        have hc : t.code = a := by
          unfold RecordType.new at ht
          split_ifs at ht with h1 h2 h3 h4 h5 <;> simp only [Res.ok.injEq] at ht <;> subst ht <;> simp_all [RecordType.code]
        rw [ht] at h
        simp only [Res.ok_bind, List.length_cons, slice] at h
        split_ifs at h with h1 h2 h3 <;> try simp only [Res.ok_bind, reduceCtorEq] at h
        all_goals refine ⟨t, b, c, d, e, rest, by rw [hc], by omega, by omega⟩
  · rintro ⟨t, v1, v2, l1, l2, rest, rfl, h1, h2⟩
    unfold Record.fromRaw
    simp only [List.length_cons, idx, List.getElem?_cons_zero, List.getElem?_cons_succ, Res.ok_bind, new_code, slice]
    rw [if_neg (by omega), if_neg (by omega), if_pos ⟨by omega, by omega⟩]
    simp only [Res.ok_bind]
    rw [if_neg (by omega)]
    rfl

/-! record protection -/

/-- The key an endpoint writes with, and the one it reads with. -/
def wKey (p : RecordPayloadProtection) : Key := if p.isClient then p.keys.client else p.keys.server
def rKey (p : RecordPayloadProtection) : Key := if p.isClient then p.keys.server else p.keys.client

/-- A key of the right sizes for the suite. -/
def KeyOk (cs : CipherSuite) (k : Key) : Prop := k.key.length = cs.getKeyAndIvLen.1 ∧ k.iv.length = 12

/-- The key after one more record. -/
def next (k : Key) : Key := { k with sequenceNumber := k.sequenceNumber + 1#64 }

@[simp] theorem keys_setKeys (p : RecordPayloadProtection) (w : WriteKeys) : (p.setKeys w).keys = w := by
  unfold setKeys keys; cases p.applicationKeys <;> rfl
@[simp] theorem isClient_setKeys (p : RecordPayloadProtection) (w : WriteKeys) : (p.setKeys w).isClient = p.isClient := by
  unfold setKeys; cases p.applicationKeys <;> rfl
@[simp] theorem cipher_setKeys (p : RecordPayloadProtection) (w : WriteKeys) : (p.setKeys w).cipher = p.cipher := by
  unfold setKeys; cases p.applicationKeys <;> rfl
@[simp] theorem ks_setKeys (p : RecordPayloadProtection) (w : WriteKeys) : (p.setKeys w).keySchedule = p.keySchedule := by
  unfold setKeys; cases p.applicationKeys <;> rfl

/-- `p'` is `p` after the writing key became `w` and the reading key `r`. -/
structure Step (p p' : RecordPayloadProtection) (w r : Key) : Prop where
  w : wKey p' = w
  r : rKey p' = r
  cipher : p'.cipher = p.cipher
  isClient : p'.isClient = p.isClient
  ks : p'.keySchedule = p.keySchedule

theorem writeNonce_eq (p : RecordPayloadProtection) (hiv : (wKey p).iv.length = 12) (hs : (wKey p).sequenceNumber ≠ BitVec.allOnes 64) :
    ∃ p', p.writeNonce = .ok (Tls13.nonce (wKey p).iv (wKey p).sequenceNumber.toNat, (wKey p).key, p') ∧
      Step p p' (next (wKey p)) (rKey p) := by
  unfold wKey at hiv hs ⊢
  unfold writeNonce
  cases hc : p.isClient
  · simp only [hc, Bool.false_eq_true, if_false] at hiv hs ⊢
    rw [nonce_eq _ hiv hs]
    exact ⟨_, rfl, by simp [wKey, hc, next], by simp [rKey, hc], by simp, by simp, by simp⟩
  · simp only [hc, if_true] at hiv hs ⊢
    rw [nonce_eq _ hiv hs]
    exact ⟨_, rfl, by simp [wKey, hc, next], by simp [rKey, hc], by simp, by simp, by simp⟩

theorem readNonce_eq (p : RecordPayloadProtection) (hiv : (rKey p).iv.length = 12) (hs : (rKey p).sequenceNumber ≠ BitVec.allOnes 64) :
    ∃ p', p.readNonce = .ok (Tls13.nonce (rKey p).iv (rKey p).sequenceNumber.toNat, (rKey p).key, p') ∧
      Step p p' (wKey p) (next (rKey p)) := by
  unfold rKey at hiv hs ⊢
  unfold readNonce
  cases hc : p.isClient
  · simp only [hc, Bool.false_eq_true, if_false] at hiv hs ⊢
    rw [nonce_eq _ hiv hs]
    exact ⟨_, rfl, by simp [wKey, hc], by simp [rKey, hc, next], by simp, by simp, by simp⟩
  · simp only [hc, if_true] at hiv hs ⊢
    rw [nonce_eq _ hiv hs]
    exact ⟨_, rfl, by simp [wKey, hc], by simp [rKey, hc, next], by simp, by simp, by simp⟩

theorem scan_zeros (l : Bytes) (n : Nat) : scanType (l ++ zeros n) (l.length + n) = scanType (l ++ zeros n) l.length := by
  suffices h : ∀ m, m ≤ n → scanType (l ++ zeros n) (l.length + m) = scanType (l ++ zeros n) l.length from h n (le_refl _)
  intro m
  induction m with
  | zero => intro _; rfl
  | succ m ih =>
    intro hm
    rw [← Nat.add_assoc, scanType]
    have : idx (ε := TlsError) (l ++ zeros n) (l.length + m) = .ok 0#8 := by
      unfold idx
      rw [List.getElem?_append_right (by omega)]
      simp [zeros, show m < n by omega]
    rw [this]
    simp only [Res.ok_bind]
    rw [if_neg (by simp)]
    exact ih (by omega)

/-- The content type is found before the padding. -/
theorem scan_eq (f : Bytes) (t : RecordType) (ht : t ≠ .invalid) (n : Nat) :
    scanType (f ++ [t.code] ++ zeros n) (f ++ [t.code] ++ zeros n).length = .ok (t, f.length) := by
  rw [List.length_append, zeros_length, scan_zeros, List.length_append, List.length_singleton, scanType]
  have : idx (ε := TlsError) (f ++ [t.code] ++ zeros n) f.length = .ok t.code := by
    unfold idx; simp
  rw [this]
  simp only [Res.ok_bind]
  rw [if_pos (code_ne_zero ht), new_code]; rfl

theorem scanType_ne_panic (p : Bytes) (n : Nat) (h : n ≤ p.length) : (scanType p n).returns := by
  induction n with
  | zero => trivial
  | succ n ih =>
    rw [scanType]
    have : idx (ε := TlsError) p n = .ok p[n] := by unfold idx; rw [List.getElem?_eq_getElem h]
    rw [this]
    simp only [Res.ok_bind]
    split
    · unfold RecordType.new
      split_ifs <;> trivial
    · exact ih (by omega)

/-- The wire form RFC 8446 section 5.2 gives to content `f` of type `t` with `n` bytes of padding: header, ciphertext and tag, where
header ++ ciphertext ++ tag come from the AEAD. -/
def Sealed (c : Cipher) (k : Key) (t : RecordType) (f : Bytes) (n : Nat) (wire : Bytes) : Prop :=
  ∃ ct tag : Bytes, wire = [23#8, 3#8, 3#8] ++ beBytes 2 (f.length + 1 + n + 16) ++ (ct ++ tag) ∧
    c.encrypt k.key (Tls13.nonce k.iv k.sequenceNumber.toNat) (f ++ [t.code] ++ zeros n)
      ([23#8, 3#8, 3#8] ++ beBytes 2 (f.length + 1 + n + 16)) = .ok (ct, tag) ∧
    ct.length = f.length + 1 + n ∧ tag.length = 16

theorem beBytes2 (n : Nat) : beBytes 2 n = [BitVec.ofNat 8 (n / 256), BitVec.ofNat 8 n] := by
  simp [beBytes]

theorem suiteKeys {cs : CipherSuite} {k : Key} (hk : KeyOk cs k) (s : Nat) : SuiteKeys cs k.key (Tls13.nonce k.iv s) :=
  ⟨hk.1, by rw [nonce_length _ _ hk.2, (keyLen_le cs).2]⟩

theorem encrypt_spec (cs : CipherSuite) (p : RecordPayloadProtection) (hc : cs.getCipher = .ok p.cipher) (hk : KeyOk cs (wKey p))
    (hs : (wKey p).sequenceNumber ≠ BitVec.allOnes 64) (t : RecordType) (f : Bytes) (hf : f.length + 64 ≤ 2 ^ 24) :
    ∃ wire p', p.encrypt (Record.new t f) = (.ok wire, p') ∧ Sealed p.cipher (wKey p) t f 0 wire ∧ Step p p' (next (wKey p)) (rKey p) := by
  obtain ⟨p', hp, hstep⟩ := writeNonce_eq p hk.2 hs
  obtain ⟨ct, tag, he, hl1, hl2, _⟩ := C15_aead_round_trip cs p.cipher hc (wKey p).key (Tls13.nonce (wKey p).iv (wKey p).sequenceNumber.toNat)
    (f ++ [t.code]) ([23#8, 3#8, 3#8] ++ beBytes 2 (f.length + 1 + 0 + 16)) (suiteKeys hk _) (by simp; omega)
  refine ⟨_, p', ?_, ⟨ct, tag, rfl, ?_, ?_, hl2⟩, hstep⟩
  · unfold RecordPayloadProtection.encrypt
    simp only [Record.new]
    rw [hp]
    simp only []
    rw [beBytes2] at he
    simp only [List.length_append, List.length_singleton, RecordType.code, List.cons_append, List.nil_append, Nat.add_zero] at he ⊢
    rw [he]
    simp [beBytes2]
  · simpa using he
  · simpa using hl1

theorem decrypt_spec (cs : CipherSuite) (p : RecordPayloadProtection) (hc : cs.getCipher = .ok p.cipher) (hk : KeyOk cs (rKey p))
    (hs : (rKey p).sequenceNumber ≠ BitVec.allOnes 64) (t : RecordType) (ht : t ≠ .invalid) (f : Bytes) (n : Nat) (wire rest : Bytes)
    (hf : f.length + n + 17 < 2 ^ 16) (hw : Sealed p.cipher (rKey p) t f n wire) :
    ∃ r p', Record.fromRaw (wire ++ rest) = .ok (wire.length, r) ∧ r.contentType = .applicationData ∧ r.len = r.fraqment.length ∧
      r.fraqment.length = f.length + n + 17 ∧
      p.decrypt r = (.ok (t, f), p') ∧ Step p p' (wKey p) (next (rKey p)) := by
  obtain ⟨p', hp, hstep⟩ := readNonce_eq p hk.2 hs
  obtain ⟨ct, tag, hwe, he, hl1, hl2⟩ := hw
  have hlen : (ct ++ tag).length = f.length + 1 + n + 16 := by rw [List.length_append, hl1, hl2]
  have hraw := fromRaw_header .applicationData 3#8 3#8 (ct ++ tag) rest (by omega)
  rw [hlen] at hraw
  have hh : ([23#8, 3#8, 3#8] ++ beBytes 2 (f.length + 1 + n + 16) : Bytes) =
    [RecordType.applicationData.code, 3#8, 3#8, BitVec.ofNat 8 ((f.length + 1 + n + 16) / 256), BitVec.ofNat 8 (f.length + 1 + n + 16)] := by
    rw [beBytes2]; rfl
  rw [hh] at hwe he
  refine ⟨⟨.applicationData, 771, f.length + 1 + n + 16, [RecordType.applicationData.code, 3#8, 3#8,
    BitVec.ofNat 8 ((f.length + 1 + n + 16) / 256), BitVec.ofNat 8 (f.length + 1 + n + 16)], ct ++ tag⟩, p', ?_, ?_, ?_, ?_, ?_, hstep⟩
  · rw [hwe, hraw]
    simp only [List.length_append, List.length_cons, List.length_nil]
    congr 2
    omega
  · rfl
  · simpa using hlen.symm
  · simp only []; rw [hlen]; omega
  · have hd : p.cipher.decrypt (rKey p).key (Tls13.nonce (rKey p).iv (rKey p).sequenceNumber.toNat) ct
        [RecordType.applicationData.code, 3#8, 3#8, BitVec.ofNat 8 ((f.length + 1 + n + 16) / 256), BitVec.ofNat 8 (f.length + 1 + n + 16)] tag =
          .ok (f ++ [t.code] ++ zeros n) := by
      obtain ⟨ct', tag', he', _, _, hd'⟩ := C15_aead_round_trip cs p.cipher hc (rKey p).key
        (Tls13.nonce (rKey p).iv (rKey p).sequenceNumber.toNat) (f ++ [t.code] ++ zeros n)
        [RecordType.applicationData.code, 3#8, 3#8, BitVec.ofNat 8 ((f.length + 1 + n + 16) / 256), BitVec.ofNat 8 (f.length + 1 + n + 16)]
        (suiteKeys hk _) (by simp; omega)
      rw [he] at he'
      simp only [Res.ok.injEq, Prod.mk.injEq] at he'
      rw [he'.1, he'.2]; exact hd'
    unfold RecordPayloadProtection.decrypt
    rw [if_neg (by simp only []; rw [hlen]; omega)]
    simp only []
    rw [hp]
    have h1 : (ct ++ tag).take ((ct ++ tag).length - 16) = ct := by
      rw [hlen, show f.length + 1 + n + 16 - 16 = ct.length by omega]; simp
    simp only [h1, List.drop_left]
    rw [hd]
    simp only []
    rw [scan_eq f t ht n]
    simp

/-- Receiving any record of at least 16 bytes returns (possibly with an error) and advances only the reading key. -/
theorem decrypt_any (cs : CipherSuite) (p : RecordPayloadProtection) (hc : cs.getCipher = .ok p.cipher) (hk : KeyOk cs (rKey p))
    (hs : (rKey p).sequenceNumber ≠ BitVec.allOnes 64) (r : Record) (h16 : 16 ≤ r.fraqment.length)
    (hl : r.header.length + r.fraqment.length < 2 ^ 17) :
    ∃ res p', p.decrypt r = (res, p') ∧ res.returns ∧ Step p p' (wKey p) (next (rKey p)) := by
  obtain ⟨p', hp, hstep⟩ := readNonce_eq p hk.2 hs
  unfold RecordPayloadProtection.decrypt
  rw [if_neg (by omega)]
  simp only []
  rw [hp]
  simp only []
  have := C16_only_right_tag cs p.cipher hc (rKey p).key (Tls13.nonce (rKey p).iv (rKey p).sequenceNumber.toNat)
    (r.fraqment.take (r.fraqment.length - 16)) r.header (r.fraqment.drop (r.fraqment.take (r.fraqment.length - 16)).length)
    (suiteKeys hk _) (by simp; omega)
  rcases this with ⟨pl, hd, _⟩ | ⟨hd, _⟩
  · rw [hd]
    simp only []
    refine ⟨_, p', rfl, ?_, hstep⟩
    have := scanType_ne_panic pl pl.length (le_refl _)
    cases hsc : scanType pl pl.length with
    | ok a => simp [Res.returns]
    | err e => simp [Res.returns]
    | panic => rw [hsc] at this; exact this
  · rw [hd]
    exact ⟨_, p', rfl, trivial, hstep⟩

end ATLS.RecProof
