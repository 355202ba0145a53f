import Verif.Model.Stream
import Verif.Spec.Record
import Verif.Props.Record
/-
C21-C24: the stream API.
-/
namespace ATLS
open ATLS.Spec ATLS.Model ATLS.KsProof ATLS.RecProof

/-! ### C21, C22 -/

/-- The AEAD algorithm RFC 8446 appendix B.4 assigns to a suite. -/
def rfcAead : CipherSuite → Option Tls13.Aead
  | .aes128GcmSha256 => some .aesGcm
  | .aes256GcmSha384 => some .aesGcm
  | .chacha20Poly1305Sha256 => some .chacha20Poly1305
  | .emptyRenegotiationInfoScsv => none

/-- Without record protection `tls_write` writes nothing and reports an error, for every stream state and payload. -/
theorem C21_refuses_unprotected (s : TlsStream) (src : Bytes) (h : s.protection = none) :
    s.tlsWrite src = (.err .internalError, s) := by
  unfold TlsStream.tlsWrite; rw [h]

example (sock : Socket) : (TlsStream.new sock).protection = none := rfl

/-- A stream whose writing key is `key`/`iv`/`seq` for the suite, with a socket that accepts the writes. -/
structure Writable (cs : CipherSuite) (s : TlsStream) (p : RecordPayloadProtection) : Prop where
  prot : s.protection = some p
  cipher : cs.getCipher = .ok p.cipher
  sizes : (wKey p).key.length = cs.getKeyAndIvLen.1 ∧ (wKey p).iv.length = 12
  seq : (wKey p).sequenceNumber.toNat < 2 ^ 64 - 1
  sock : s.stream.failures = []

/-- C21 in full: `tls_write` succeeds and adds to the socket exactly the RFC 8446 protected record carrying the payload (up to the record limit
of 2^14 bytes). -/
def C21_statement : Prop :=
  ∀ (cs : CipherSuite) (a : Tls13.Aead) (s : TlsStream) (p : RecordPayloadProtection) (src : Bytes),
    rfcAead cs = some a → Writable cs s p → src.length ≤ 2 ^ 14 →
    ∃ s', s.tlsWrite src = (.ok (), s') ∧
      s'.stream.written = s.stream.written ++
        Tls13.protectedRecord a (wKey p).key (wKey p).iv (wKey p).sequenceNumber.toNat 23#8 src 0

namespace RecProof

theorem Writable.ne {cs : CipherSuite} {s : TlsStream} {p : RecordPayloadProtection} (h : Writable cs s p) :
    (wKey p).sequenceNumber ≠ BitVec.allOnes 64 := by
  intro e
  have := h.seq
  rw [e] at this
  simp at this

theorem tlsWrite_spec {cs : CipherSuite} {s : TlsStream} {p : RecordPayloadProtection} (h : Writable cs s p) (src : Bytes)
    (hl : src.length + 64 ≤ 2 ^ 24) :
    ∃ w s' p', s.tlsWrite src = (.ok (), s') ∧ s'.stream = { s.stream with written := s.stream.written ++ w } ∧ s'.buffer = s.buffer ∧
      s'.protection = some p' ∧ Sealed p.cipher (wKey p) .applicationData src 0 w ∧ Step p p' (next (wKey p)) (rKey p) := by
  obtain ⟨w, p', he, hs, hst⟩ := encrypt_spec cs p h.cipher h.sizes (Writable.ne h) .applicationData src hl
  have hne : w ≠ [] := by
    obtain ⟨ct, tag, hw, _⟩ := hs
    rw [hw]; simp
  refine ⟨w, { s with protection := some p', stream := { s.stream with written := s.stream.written ++ w } }, p', ?_, rfl, rfl, rfl, hs, hst⟩
  unfold TlsStream.tlsWrite
  rw [h.prot]
  simp only []
  rw [he]
  simp only [Socket.writeAll]
  rw [if_neg hne]
  have hf := h.sock
  cases hs : s.stream
  rw [hs] at hf
  simp only at hf
  simp [hf]

end RecProof

/-- C21 for AES-GCM suites with every payload, and for ChaCha20-Poly1305 when payload plus type byte is not a multiple of 64 bytes. Missing: the
remaining ChaCha20 lengths, for which the end of the payload goes out in clear (`C21_payload_in_clear`, `C21_false`). -/
theorem C21_protected_partial (cs : CipherSuite) (a : Tls13.Aead) (s : TlsStream) (p : RecordPayloadProtection) (src : Bytes)
    (ha : rfcAead cs = some a) (h : Writable cs s p) (hl : src.length ≤ 2 ^ 14)
    (hx : cs = .chacha20Poly1305Sha256 → (src.length + 1) % 64 ≠ 0) :
    ∃ s', s.tlsWrite src = (.ok (), s') ∧
      s'.stream.written = s.stream.written ++
        Tls13.protectedRecord a (wKey p).key (wKey p).iv (wKey p).sequenceNumber.toNat 23#8 src 0 := by
  obtain ⟨w, s', p', h1, h2, _, _, ⟨ct, tag, hw, he, hl1, hl2⟩, _⟩ := tlsWrite_spec h src (by omega)
  refine ⟨s', h1, ?_⟩
  rw [h2]
  simp only []
  congr 1
  have hlen : (src ++ [23#8] ++ zeros 0).length = src.length + 1 := by simp
  have hsz := h.sizes
  have hci := h.cipher
  have hnl := nonce_length (wKey p).iv (wKey p).sequenceNumber.toNat hsz.2
  unfold Tls13.protectedRecord
  simp only [hlen, Tls13.protectedHeader]
  simp only [Nat.add_zero] at he hw
  have gcm : ∀ cs', (wKey p).key.length = 16 ∨ (wKey p).key.length = 24 ∨ (wKey p).key.length = 32 → p.cipher = .gcm cs' →
      w = (match Tls13.Aead.aesGcm.encrypt (wKey p).key (Tls13.nonce (wKey p).iv (wKey p).sequenceNumber.toNat) (src ++ [23#8] ++ zeros 0)
        ([23#8, 3#8, 3#8] ++ beBytes 2 (src.length + 1 + 16)) with
        | (ct, tag) => [23#8, 3#8, 3#8] ++ beBytes 2 (src.length + 1 + 16) ++ ct ++ tag) := by
    intro cs' hk hc'
    rw [hc'] at he
    simp only [Cipher.encrypt] at he
    rw [C12_gcm_sp800_38d _ _ _ _ hk hnl (by simp) (by simp; omega)] at he
    simp only [Res.ok.injEq] at he
    rw [hw, Tls13.Aead.encrypt]
    have he' : Gcm.encrypt (Aes.aes (wKey p).key) (Tls13.nonce (wKey p).iv (wKey p).sequenceNumber.toNat) (src ++ [23#8] ++ zeros 0)
        ([23#8, 3#8, 3#8] ++ beBytes 2 (src.length + 1 + 16)) = (ct, tag) := he
    rw [he']
    simp
  cases cs <;> simp only [rfcAead, Option.some.injEq, reduceCtorEq] at ha <;> subst ha <;>
    simp only [CipherSuite.getCipher, Res.ok.injEq, CipherSuite.getKeyAndIvLen] at hci hsz
  · exact gcm _ (Or.inr (Or.inr hsz.1)) hci.symm
  · rw [← hci] at he
    simp only [Cipher.encrypt] at he
    obtain ⟨c, hc1, _, hc2⟩ := CipherProof.poly_encrypt_ok (wKey p).key (Tls13.nonce (wKey p).iv (wKey p).sequenceNumber.toNat)
      (src ++ [RecordType.applicationData.code] ++ zeros 0) ([23#8, 3#8, 3#8] ++ beBytes 2 (src.length + 1 + 16)) hsz.1 hnl (by simp; omega)
    rw [C13_chacha20_partial _ _ _ 1 hsz.1 hnl (by simp; omega) (Or.inl (by simpa using hx rfl))] at hc1
    simp only [Res.ok.injEq] at hc1
    rw [hc2] at he
    simp only [Res.ok.injEq, Prod.mk.injEq] at he
    rw [hw, ← he.1, ← he.2, ← hc1]
    simp [Tls13.Aead.encrypt, ChaCha.aeadEncrypt, RecordType.code]
  · exact gcm _ (Or.inl hsz.1) hci.symm

/-- A stream as it is after a handshake meets the hypotheses. -/
example : ∃ s p, Writable .aes128GcmSha256 s p := by
  obtain ⟨w, hf, _, _⟩ := new_ok ⟨⟨.sha256, []⟩, ⟨.sha256, []⟩, ⟨.sha256, []⟩⟩ (.gcm .aes128GcmSha256) true
  refine ⟨⟨⟨[], [], []⟩, some ⟨⟨⟨.sha256, []⟩, ⟨.sha256, []⟩, ⟨.sha256, []⟩⟩, .gcm .aes128GcmSha256, w, true, none⟩, []⟩, _, rfl, rfl,
    ⟨hf.2.1, hf.2.2.1⟩, ?_, rfl⟩
  show w.client.sequenceNumber.toNat < 2 ^ 64 - 1
  rw [hf.2.2.2]; decide

/-- With ChaCha20-Poly1305, a payload whose length plus one is a multiple of 64 is sent with its last 63 bytes in clear: they appear unchanged in
the bytes written to the socket, followed by the type byte 23 and the 16-byte tag. -/
theorem C21_payload_in_clear (s : TlsStream) (p : RecordPayloadProtection) (src : Bytes) (h : Writable .chacha20Poly1305Sha256 s p)
    (hl : src.length ≤ 2 ^ 14) (hx : (src.length + 1) % 64 = 0) :
    ∃ s' front tag, s.tlsWrite src = (.ok (), s') ∧ tag.length = 16 ∧ front.length = 5 + (src.length - 63) ∧
      s'.stream.written = s.stream.written ++ front ++ src.drop (src.length - 63) ++ [23#8] ++ tag := by
  obtain ⟨w, s', p', h1, h2, _, _, ⟨ct, tag, hw, he, hl1, hl2⟩, _⟩ := tlsWrite_spec h src (by omega)
  have hsz := h.sizes
  have hci := h.cipher
  have hnl := nonce_length (wKey p).iv (wKey p).sequenceNumber.toNat hsz.2
  simp only [CipherSuite.getCipher, Res.ok.injEq, CipherSuite.getKeyAndIvLen] at hci hsz
  rw [← hci] at he
  simp only [Cipher.encrypt, Nat.add_zero] at he
  obtain ⟨c, hc1, _, hc2⟩ := CipherProof.poly_encrypt_ok (wKey p).key (Tls13.nonce (wKey p).iv (wKey p).sequenceNumber.toNat)
      (src ++ [RecordType.applicationData.code] ++ zeros 0) ([23#8, 3#8, 3#8] ++ beBytes 2 (src.length + 1 + 16)) hsz.1 hnl (by simp; omega)
  have hlen : (src ++ [RecordType.applicationData.code] ++ zeros 0).length = src.length + 1 := by simp
  obtain ⟨c', hc', hclear⟩ := C13_last_block_in_clear _ _ (src ++ [RecordType.applicationData.code] ++ zeros 0) 1 hsz.1 hnl
    (by simp; omega) (by rw [hlen]; exact hx)
  rw [hc1] at hc'
  simp only [Res.ok.injEq] at hc'
  subst hc'
  rw [hc2] at he
  simp only [Res.ok.injEq, Prod.mk.injEq] at he
  refine ⟨s', [23#8, 3#8, 3#8] ++ beBytes 2 (src.length + 1 + 16) ++ c.take (src.length - 63), tag, h1, hl2, by simp [he.1, hl1]; omega, ?_⟩
  rw [h2, hw]
  simp only [Nat.add_zero]
  have hdrop : c.drop (src.length - 63) = src.drop (src.length - 63) ++ [23#8] := by
    rw [hlen, show src.length + 1 - 64 = src.length - 63 by omega] at hclear
    rw [hclear]
    simp [RecordType.code, List.drop_append]
  rw [← he.1]
  conv_lhs => rw [← List.take_append_drop (src.length - 63) c, hdrop]
  simp

/-- C21 is false for ChaCha20-Poly1305: with an all-zero key the first encrypted byte of 63 zero bytes should be 0x9f and is 0. -/
theorem C21_false : ¬ C21_statement := by
  intro hst
  obtain ⟨p, hp⟩ : ∃ p : RecordPayloadProtection, p = ⟨⟨⟨.sha256, []⟩, ⟨.sha256, []⟩, ⟨.sha256, []⟩⟩, .poly1305,
      ⟨⟨[], zeros 32, zeros 12, 0⟩, ⟨[], zeros 32, zeros 12, 0⟩⟩, true, none⟩ := ⟨_, rfl⟩
  have hw : Writable .chacha20Poly1305Sha256 ⟨⟨[], [], []⟩, some p, []⟩ p := by
    subst hp; exact ⟨rfl, rfl, ⟨by decide, by decide⟩, by decide, rfl⟩
  obtain ⟨s', e1, e2⟩ := hst _ .chacha20Poly1305 _ _ (zeros 63) rfl hw (by decide)
  obtain ⟨s'', front, tag, f1, f2, f4, f3⟩ := C21_payload_in_clear _ _ (zeros 63) hw (by decide) (by decide)
  rw [e1] at f1
  simp only [Prod.mk.injEq, true_and] at f1
  subst f1
  rw [e2] at f3
  have hk : wKey p = ⟨[], zeros 32, zeros 12, 0⟩ := by subst hp; rfl
  rw [hk] at f3
  have h3 : Model.ChaCha.encrypt (zeros 1) (zeros 32) (zeros 12) 1 = .ok [0x9f] := by decide +kernel
  rw [C13_chacha20_partial _ _ _ _ (by decide) (by decide) (by decide) (Or.inl (by decide))] at h3
  simp only [Res.ok.injEq] at h3
  have g1 := congrArg (fun l : Bytes => l[0]?) h3
  have g2 := congrArg (fun l : Bytes => l[5]?) f3
  simp only [List.nil_append, List.append_assoc] at g2
  rw [List.getElem?_append_right (by rw [f4]; decide), f4] at g2
  unfold Tls13.protectedRecord at g2
  simp only [Tls13.Aead.encrypt, ChaCha.aeadEncrypt, List.append_assoc] at g2
  rw [List.getElem?_append_right (by simp [Tls13.protectedHeader]), List.getElem?_append_left (by simp [Tls13.protectedHeader, Spec.ChaCha.encrypt])] at g2
  have hn : Tls13.nonce (zeros 12) (BitVec.toNat (0 : BitVec 64)) = zeros 12 := by decide
  rw [hn, show 5 - (Tls13.protectedHeader (zeros 63 ++ ([23#8] ++ zeros 0)).length).length = 0 by simp [Tls13.protectedHeader]] at g2
  simp only [Spec.ChaCha.encrypt, List.getElem?_mapIdx] at g1 g2
  simp only [show (zeros 1)[0]? = some 0#8 from rfl, show (zeros 63 ++ ([23#8] ++ zeros 0))[0]? = some 0#8 from rfl, Option.map_some,
    List.getElem?_cons_zero] at g1 g2
  rw [g1] at g2
  have hz : (List.drop ((zeros 63).length - 63) (zeros 63) ++ ([23#8] ++ tag))[5 - (5 + ((zeros 63).length - 63))]? = some 0#8 := rfl
  rw [hz] at g2
  revert g2; decide

/-- C22 in full: the bytes of one `tls_write` are one record whose length field is the length of its body. -/
def C22_statement : Prop :=
  ∀ (cs : CipherSuite) (s : TlsStream) (p : RecordPayloadProtection) (src : Bytes), Writable cs s p → src.length ≤ 2 ^ 20 →
    ∃ s' l1 l2 body, s.tlsWrite src = (.ok (), s') ∧ s'.stream.written = s.stream.written ++ ([23#8, 3#8, 3#8, l1, l2] ++ body) ∧
      l1.toNat * 256 + l2.toNat = body.length

/-- C22 for payloads of at most 65518 bytes; the body is 17 bytes longer than the payload. Missing: longer payloads, for which the length field
is truncated (`C22_false`). -/
theorem C22_one_record_partial (cs : CipherSuite) (s : TlsStream) (p : RecordPayloadProtection) (src : Bytes) (h : Writable cs s p)
    (hl : src.length ≤ 65518) :
    ∃ s' l1 l2 body, s.tlsWrite src = (.ok (), s') ∧ s'.stream.written = s.stream.written ++ ([23#8, 3#8, 3#8, l1, l2] ++ body) ∧
      l1.toNat * 256 + l2.toNat = body.length ∧ body.length = src.length + 17 := by
  obtain ⟨w, s', p', h1, h2, _, _, ⟨ct, tag, hw, _, hl1, hl2⟩, _⟩ := tlsWrite_spec h src (by omega)
  have hb : (ct ++ tag).length = src.length + 17 := by rw [List.length_append, hl1, hl2]
  refine ⟨s', BitVec.ofNat 8 ((src.length + 17) / 256), BitVec.ofNat 8 (src.length + 17), ct ++ tag, h1, ?_, ?_, hb⟩
  · rw [h2, hw, beBytes2]
    simp
  · rw [hb, len_bytes _ (by omega)]

/-- C22, consequence: payloads above 2^14 + 239 bytes give records above the limit of RFC 8446 section 5.2 (2^14 + 256 bytes), because
`tls_write` never splits a payload. -/
theorem C22_oversized (cs : CipherSuite) (s : TlsStream) (p : RecordPayloadProtection) (src : Bytes) (h : Writable cs s p)
    (hl : src.length ≤ 65518) (hbig : 2 ^ 14 + 239 < src.length) :
    ∃ s' l1 l2 body, s.tlsWrite src = (.ok (), s') ∧ s'.stream.written = s.stream.written ++ ([23#8, 3#8, 3#8, l1, l2] ++ body) ∧
      l1.toNat * 256 + l2.toNat = body.length ∧ 2 ^ 14 + 256 < body.length := by
  obtain ⟨s', l1, l2, body, h1, h2, h3, h4⟩ := C22_one_record_partial cs s p src h hl
  exact ⟨s', l1, l2, body, h1, h2, h3, by omega⟩

/-- C22 is false: for a payload of 65519 bytes the length field is 0. -/
theorem C22_false : ¬ C22_statement := by
  intro hst
  obtain ⟨p, hp⟩ : ∃ p : RecordPayloadProtection, p = ⟨⟨⟨.sha256, []⟩, ⟨.sha256, []⟩, ⟨.sha256, []⟩⟩, .poly1305,
      ⟨⟨[], zeros 32, zeros 12, 0⟩, ⟨[], zeros 32, zeros 12, 0⟩⟩, true, none⟩ := ⟨_, rfl⟩
  have hw : Writable .chacha20Poly1305Sha256 ⟨⟨[], [], []⟩, some p, []⟩ p := by
    subst hp; exact ⟨rfl, rfl, ⟨by decide, by decide⟩, by decide, rfl⟩
  have hlen : (zeros 65519).length = 65519 := zeros_length _
  generalize zeros 65519 = big at hlen
  obtain ⟨s', l1, l2, body, h1, h2, h3⟩ := hst _ _ _ big hw (by omega)
  obtain ⟨w, s'', p', g1, g2, _, _, ⟨ct, tag, gw, _, hl1, hl2⟩, _⟩ := tlsWrite_spec hw big (by omega)
  rw [h1] at g1
  simp only [Prod.mk.injEq, true_and] at g1
  subst g1
  rw [g2, gw, hlen, beBytes2] at h2
  simp at h2
  obtain ⟨e1, e2, e3⟩ := h2
  rw [← e3, ← e1, ← e2, List.length_append, hl1, hl2, hlen] at h3
  revert h3; decide

/-! ### C23 -/

theorem RecProof.deliver_eq (t : RecordType) (x : Bytes) (n : Nat) (h : x.length ≤ n) : TlsStream.deliver (Record.new t x) n = .ok x := by
  unfold TlsStream.deliver
  rw [if_neg (show ¬ (Record.new t x).len > n by simp only [Record.new]; omega)]
  rfl

/-- Successive `tls_write` calls. -/
def writePayloads : TlsStream → List Bytes → Res TlsError TlsStream
  | s, [] => .ok s
  | s, x :: xs =>
    match s.tlsWrite x with
    | (.ok (), s') => writePayloads s' xs
    | (.err e, _) => .err e
    | (.panic, _) => .panic

/-- `n` successive `tls_read` calls with a buffer of `bufLen` bytes. -/
def readPayloads (bufLen : Nat) : TlsStream → Nat → Res TlsError (List Bytes)
  | _, 0 => .ok []
  | s, n + 1 =>
    match s.tlsRead bufLen with
    | (.ok x, s') => do
      let xs ← readPayloads bufLen s' n
      .ok (x :: xs)
    | (.err e, _) => .err e
    | (.panic, _) => .panic

/-- Two endpoints of one connection: `w` writes with `p`, the peer `r` reads with `q`, same suite and matching keys at the same position. -/
structure Connected (cs : CipherSuite) (w : TlsStream) (p : RecordPayloadProtection) (r : TlsStream) (q : RecordPayloadProtection) : Prop where
  writer : Writable cs w p
  reader : r.protection = some q
  cipher : q.cipher = p.cipher
  keys : rKey q = wKey p

/-- C23 for payloads of at most `bound` bytes and the given arrival patterns (`seg recs segs`: the records `recs` arrive as the pieces `segs`):
the payloads written are the payloads read. -/
def C23_for (bound : Nat) (seg : List Bytes → List Bytes → Prop) : Prop :=
  ∀ (cs : CipherSuite) (w r : TlsStream) (p q : RecordPayloadProtection) (payloads : List Bytes) (bufLen : Nat),
    Connected cs w p r q → (∀ x ∈ payloads, x.length ≤ bound ∧ x.length ≤ bufLen) →
    (wKey p).sequenceNumber.toNat + payloads.length < 2 ^ 64 →
    ∃ w' recs, writePayloads w payloads = .ok w' ∧ w'.stream.written = w.stream.written ++ recs.flatten ∧
      ∀ segs rest, seg recs segs → r.stream.incoming = segs ++ rest → readPayloads bufLen r payloads.length = .ok payloads

/-- C23 in full: payloads of up to 2^14 bytes, every way TCP may cut or join the stream. -/
def C23_statement : Prop := C23_for (2 ^ 14) fun recs segs => segs.flatten = recs.flatten ∧ ∀ x ∈ segs, x ≠ []

/-- C23 when every record arrives as one read and payloads have at most 4074 bytes. Missing: every other arrival pattern (`C23_false`) and larger
payloads, which do not fit the 4096-byte read buffer. -/
theorem C23_read_back_partial : C23_for 4074 fun recs segs => segs = recs := by
  intro cs w r p q payloads bufLen hc hx hs
  induction payloads generalizing w r p q with
  | nil => exact ⟨w, [], rfl, by simp, fun segs rest _ _ => rfl⟩
  | cons x xs ih =>
    obtain ⟨hx1, hx2⟩ := hx x (by simp)
    obtain ⟨rec, w', p', h1, h2, h3, h4, h5, h6⟩ := tlsWrite_spec hc.writer x (by omega)
    have hne : (rKey q).sequenceNumber ≠ BitVec.allOnes 64 := by rw [hc.keys]; exact Writable.ne hc.writer
    obtain ⟨rd, q', d1, d2, d3, d4, d5, d6⟩ := decrypt_spec cs q (by rw [hc.cipher]; exact hc.writer.cipher) (by rw [hc.keys]; exact hc.writer.sizes)
      hne .applicationData (by decide) x 0 rec [] (by omega) (by rw [hc.keys, hc.cipher]; exact h5)
    rw [List.append_nil] at d1
    simp only [List.length_cons] at hs
    have hseq : (next (wKey p)).sequenceNumber.toNat = (wKey p).sequenceNumber.toNat + 1 := by
      show ((wKey p).sequenceNumber + 1#64).toNat = _
      rw [BitVec.toNat_add]; simp only [BitVec.toNat_ofNat]; omega
    have hreclen : rec.length = x.length + 22 := by
      obtain ⟨ct, tag, hw, _, hl1, hl2⟩ := h5
      rw [hw]; simp [hl1, hl2]; omega
    -- the tail, for every possible rest of the reader's socket
    have tail : ∀ inc, ∃ w'' recs, writePayloads w' xs = .ok w'' ∧ w''.stream.written = w'.stream.written ++ recs.flatten ∧
        ∀ segs rest, segs = recs → inc = segs ++ rest →
          readPayloads bufLen { r with stream := { r.stream with incoming := inc }, protection := some q' } xs.length = .ok xs := by
      intro inc
      by_cases hxs : xs = []
      · subst hxs
        exact ⟨w', [], rfl, by simp, fun segs rest _ _ => rfl⟩
      · have hpos := List.length_pos_iff.2 hxs
        have := ih w' { r with stream := { r.stream with incoming := inc }, protection := some q' } p' q'
          ⟨⟨h4, by rw [h6.cipher]; exact hc.writer.cipher, by rw [h6.w]; exact hc.writer.sizes, by rw [h6.w, hseq]; omega,
            by rw [h2]; exact hc.writer.sock⟩, rfl, by rw [d6.cipher, h6.cipher]; exact hc.cipher, by rw [d6.r, h6.w, hc.keys]⟩
          (fun y hy => hx y (by simp [hy])) (by rw [h6.w, hseq]; omega)
        exact this
    obtain ⟨w'', recs, t1, t2, t3⟩ := tail (r.stream.incoming.drop 1)
    refine ⟨w'', rec :: recs, ?_, ?_, ?_⟩
    · unfold writePayloads
      rw [h1]
      exact t1
    · rw [t2, h2]
      simp
    · rintro segs rest rfl hin
      rw [List.cons_append] at hin
      have ht3 := t3 recs rest rfl (by rw [hin]; rfl)
      have hread : r.tlsRead bufLen =
          (.ok x, { r with stream := { r.stream with incoming := r.stream.incoming.drop 1 }, protection := some q' }) := by
        unfold TlsStream.tlsRead TlsStream.tcpRead
        rw [hin]
        have htk : rec.take 4096 = rec := List.take_of_length_le (by omega)
        have hdr : rec.drop 4096 = [] := List.drop_of_length_le (by omega)
        have hrne : rec ≠ [] := by intro e; rw [e] at hreclen; simp at hreclen
        simp only [htk, hdr]
        rw [if_neg hrne]
        simp only []
        rw [d1]
        simp only []
        rw [if_neg (by rw [d3]; simp)]
        rw [hc.reader]
        simp only []
        rw [d5]
        simp only [ne_eq, not_true, if_false]
        rw [deliver_eq _ _ _ hx2]
        simp
      rw [List.length_cons, readPayloads, hread]
      simp only []
      rw [ht3]; rfl


/-- Two writes whose records arrive in one TCP read: the second payload is lost; reading twice ends with an error when nothing else arrives. -/
theorem C23_coalesced_loss (cs : CipherSuite) (w r : TlsStream) (p q : RecordPayloadProtection) (x y : Bytes) (bufLen : Nat)
    (hc : Connected cs w p r q) (hlen : x.length + y.length + 44 ≤ 4096) (hb : x.length ≤ bufLen)
    (hs : (wKey p).sequenceNumber.toNat + 2 < 2 ^ 64) :
    ∃ w' wire, writePayloads w [x, y] = .ok w' ∧ w'.stream.written = w.stream.written ++ wire ∧ wire.length = x.length + y.length + 44 ∧
      (r.stream.incoming = [wire] → readPayloads bufLen r 2 = .err .brokenPipe) := by
  obtain ⟨r1, w1, p1, h1, h2, h3, h4, h5, h6⟩ := tlsWrite_spec hc.writer x (by omega)
  have hseq : (next (wKey p)).sequenceNumber.toNat = (wKey p).sequenceNumber.toNat + 1 := by
    show ((wKey p).sequenceNumber + 1#64).toNat = _
    rw [BitVec.toNat_add]; simp only [BitVec.toNat_ofNat]; omega
  have hw1 : Writable cs w1 p1 := ⟨h4, by rw [h6.cipher]; exact hc.writer.cipher, by rw [h6.w]; exact hc.writer.sizes,
    by rw [h6.w, hseq]; omega, by rw [h2]; exact hc.writer.sock⟩
  obtain ⟨r2, w2, p2, g1, g2, g3, g4, g5, g6⟩ := tlsWrite_spec hw1 y (by omega)
  have hl1 : r1.length = x.length + 22 := by
    obtain ⟨ct, tag, hw, _, hl1, hl2⟩ := h5
    rw [hw]; simp [hl1, hl2]; omega
  have hl2 : r2.length = y.length + 22 := by
    obtain ⟨ct, tag, hw, _, hl1, hl2⟩ := g5
    rw [hw]; simp [hl1, hl2]; omega
  have hne : (rKey q).sequenceNumber ≠ BitVec.allOnes 64 := by rw [hc.keys]; exact Writable.ne hc.writer
  obtain ⟨rd, q', d1, d2, d3, d4, d5, d6⟩ := decrypt_spec cs q (by rw [hc.cipher]; exact hc.writer.cipher) (by rw [hc.keys]; exact hc.writer.sizes)
    hne .applicationData (by decide) x 0 r1 r2 (by omega) (by rw [hc.keys, hc.cipher]; exact h5)
  refine ⟨w2, r1 ++ r2, ?_, ?_, by rw [List.length_append]; omega, ?_⟩
  · simp only [writePayloads]
    rw [h1]; simp only []
    rw [g1]
  · rw [g2, h2]; simp
  · intro hin
    have hread : r.tlsRead bufLen = (.ok x, { r with stream := { r.stream with incoming := [] }, protection := some q' }) := by
      unfold TlsStream.tlsRead TlsStream.tcpRead
      rw [hin]
      have htk : (r1 ++ r2).take 4096 = r1 ++ r2 := List.take_of_length_le (by rw [List.length_append]; omega)
      have hdr : (r1 ++ r2).drop 4096 = [] := List.drop_of_length_le (by rw [List.length_append]; omega)
      have hrne : r1 ++ r2 ≠ [] := by
        intro e
        have := congrArg List.length e
        rw [List.length_append, List.length_nil] at this; omega
      simp only [htk, hdr]
      rw [if_neg hrne]
      simp only []
      rw [d1]
      simp only []
      rw [if_neg (by rw [d3]; simp)]
      rw [hc.reader]
      simp only []
      rw [d5]
      simp only [ne_eq, not_true, if_false]
      rw [deliver_eq _ _ _ hb]
      simp
    rw [readPayloads, hread]
    simp only [readPayloads, TlsStream.tlsRead, TlsStream.tcpRead]
    rfl

namespace RecProof
/-- A protection object of the client with the all-zero key (for witnesses). -/
def zeroProt (client : Bool) : RecordPayloadProtection :=
  ⟨⟨⟨.sha256, []⟩, ⟨.sha256, []⟩, ⟨.sha256, []⟩⟩, .poly1305, ⟨⟨[], zeros 32, zeros 12, 0⟩, ⟨[], zeros 32, zeros 12, 0⟩⟩, client, none⟩
end RecProof

/-- The hypotheses of the C23 theorems are met by two connected streams. -/
example (inc : List Bytes) : Connected .chacha20Poly1305Sha256 ⟨⟨[], [], []⟩, some (zeroProt true), []⟩ (zeroProt true)
    ⟨⟨inc, [], []⟩, some (zeroProt false), []⟩ (zeroProt false) :=
  ⟨⟨rfl, rfl, ⟨by decide, by decide⟩, by decide, rfl⟩, rfl, rfl, rfl⟩

/-- C23 is false: two payloads that arrive together are not both returned. -/
theorem C23_false : ¬ C23_statement := by
  intro hst
  have hconn : ∀ inc, Connected .chacha20Poly1305Sha256 ⟨⟨[], [], []⟩, some (zeroProt true), []⟩ (zeroProt true)
    ⟨⟨inc, [], []⟩, some (zeroProt false), []⟩ (zeroProt false) := fun inc =>
    ⟨⟨rfl, rfl, ⟨by decide, by decide⟩, by decide, rfl⟩, rfl, rfl, rfl⟩
  obtain ⟨w', wire, h1, h2, hwl, _⟩ := C23_coalesced_loss _ _ _ _ _ [1#8] [2#8] 100 (hconn []) (by decide) (by decide) (by decide)
  obtain ⟨w1', wire1, h1', h2', _, h3⟩ := C23_coalesced_loss _ _ _ _ _ [1#8] [2#8] 100 (hconn [wire]) (by decide) (by decide) (by decide)
  rw [h1] at h1'
  simp only [Res.ok.injEq] at h1'
  subst h1'
  rw [h2] at h2'
  have hww := List.append_cancel_left h2'
  subst hww
  obtain ⟨w2, recs, e1, e2, e3⟩ := hst _ _ _ _ _ [[1#8], [2#8]] 100 (hconn [wire]) (by simp) (by decide)
  rw [h1] at e1
  simp only [Res.ok.injEq] at e1
  subst e1
  rw [h2] at e2
  have hwr := List.append_cancel_left e2
  have hne : wire ≠ [] := by
    rintro rfl
    simp at hwl
  have := e3 [wire] [] ⟨by simpa using hwr, by simpa using hne⟩ rfl
  have h4 := h3 rfl
  simp only [List.length_cons, List.length_nil] at this
  rw [h4] at this
  cases this

/-! ### C24 -/

/-- Output operations on a stream. -/
inductive OutOp where
  | record (t : RecordType) (data : Bytes)
  | flush
  | alert (e : TlsError)
  | write (src : Bytes)

/-- The operation on the stream. -/
def OutOp.apply (s : TlsStream) : OutOp → Res TlsError Unit × TlsStream
  | .record t d => s.writeRecord t d
  | .flush => s.flush
  | .alert e => s.writeAlert e
  | .write x => s.tlsWrite x

/-- A sequence of operations, stopping at the first that fails. -/
def runOut : TlsStream → List OutOp → Res TlsError TlsStream
  | s, [] => .ok s
  | s, o :: os =>
    match o.apply s with
    | (.ok (), s') => runOut s' os
    | (.err e, _) => .err e
    | (.panic, _) => .panic

/-- One record as it should appear on the wire: encrypted if protection is installed. -/
def encodeRecord (p : Option RecordPayloadProtection) (t : RecordType) (d : Bytes) : Res TlsError Bytes × Option RecordPayloadProtection :=
  match p with
  | none => (.ok (Record.new t d).asBytes, none)
  | some p => match p.encrypt (Record.new t d) with
    | (r, p') => (r, some p')

/-- What the operations hand to the stream, record by record, in the order of the operations. -/
def handedOver : Option RecordPayloadProtection → List OutOp → Res TlsError Bytes
  | _, [] => .ok []
  | p, .flush :: os => handedOver p os
  | p, .record t d :: os =>
    match encodeRecord p t d with
    | (r, p') => do
      let b ← r
      let bs ← handedOver p' os
      .ok (b ++ bs)
  | p, .alert e :: os =>
    match encodeRecord p .alert [(AlertLevel.getFromError e).code, e.asU8] with
    | (r, p') => do
      let b ← r
      let bs ← handedOver p' os
      .ok (b ++ bs)
  | p, .write x :: os =>
    match encodeRecord p .applicationData x with
    | (r, p') => do
      let b ← r
      let bs ← handedOver p' os
      .ok (b ++ bs)

/-- C24 for the operation sequences satisfying `ok`: on a socket that accepts the writes, after the operations and a final flush the socket has
received exactly the records handed over, in order, once each. -/
def C24_for (ok : List OutOp → Prop) : Prop :=
  ∀ (s s' : TlsStream) (ops : List OutOp), s.stream.failures = [] → s.buffer = [] → ok ops → runOut s (ops ++ [.flush]) = .ok s' →
    ∃ bytes, handedOver s.protection ops = .ok bytes ∧ s'.stream.written = s.stream.written ++ bytes

/-- C24 in full: every sequence of operations. -/
def C24_statement : Prop := C24_for fun _ => True

/-- Alerts and application writes only happen while nothing is buffered: at the start (`e = true`), after a flush or after one another. -/
def calm : Bool → List OutOp → Prop
  | _, [] => True
  | _, .record _ _ :: os => calm false os
  | _, .flush :: os => calm true os
  | e, .alert _ :: os => e = true ∧ calm e os
  | e, .write _ :: os => e = true ∧ calm e os

namespace RecProof

theorem writeAll_ok (s : Socket) (b : Bytes) (h : s.failures = []) : s.writeAll b = (true, { s with written := s.written ++ b }) := by
  unfold Socket.writeAll
  split
  · next hb => subst hb; simp
  · rw [h]

theorem flush_ok (s : TlsStream) (h : s.stream.failures = []) :
    s.flush = (.ok (), { s with stream := { s.stream with written := s.stream.written ++ s.buffer }, buffer := [] }) := by
  unfold TlsStream.flush
  rw [writeAll_ok _ _ h]

theorem protectRecord_eq (s : TlsStream) (t : RecordType) (d : Bytes) :
    s.protectRecord (Record.new t d) = ((encodeRecord s.protection t d).1, { s with protection := (encodeRecord s.protection t d).2 }) := by
  unfold TlsStream.protectRecord encodeRecord
  cases hp : s.protection with
  | none =>
    cases s
    simp only [] at hp
    simp [hp]
  | some p =>
    simp only []

/-- Invariant: socket plus buffer is what was handed over. -/
theorem calm_run (ops : List OutOp) : ∀ (e : Bool) (s s' : TlsStream), s.stream.failures = [] → (e = true → s.buffer = []) → calm e ops →
    runOut s ops = .ok s' → s'.stream.failures = [] ∧
    ∃ bytes, handedOver s.protection ops = .ok bytes ∧ s'.stream.written ++ s'.buffer = s.stream.written ++ s.buffer ++ bytes := by
  induction ops with
  | nil =>
    intro e s s' hf _ _ hr
    simp only [runOut, Res.ok.injEq] at hr
    subst hr
    exact ⟨hf, [], rfl, by simp⟩
  | cons o os ih =>
    intro e s s' hf he hc hr
    unfold runOut at hr
    cases o with
    | flush =>
      simp only [OutOp.apply] at hr
      rw [flush_ok s hf] at hr
      obtain ⟨h1, bytes, h2, h3⟩ := ih true _ s' (by simpa using hf) (by simp) hc hr
      exact ⟨h1, bytes, h2, by rw [h3]; simp⟩
    | record t d =>
      simp only [OutOp.apply, TlsStream.writeRecord] at hr
      rw [protectRecord_eq] at hr
      cases hb : (encodeRecord s.protection t d).1 with
      | err x => rw [hb] at hr; cases hr
      | panic => rw [hb] at hr; cases hr
      | ok b =>
        rw [hb] at hr
        simp only [] at hr
        have : ∀ s1 : TlsStream, s1.stream.failures = [] → s1.protection = (encodeRecord s.protection t d).2 →
            s1.stream.written ++ s1.buffer = s.stream.written ++ s.buffer ++ b → runOut s1 os = .ok s' →
            s'.stream.failures = [] ∧ ∃ bytes, handedOver s.protection (.record t d :: os) = .ok bytes ∧
              s'.stream.written ++ s'.buffer = s.stream.written ++ s.buffer ++ bytes := by
          intro s1 g1 g2 g3 g4
          obtain ⟨h1, bytes, h2, h3⟩ := ih false s1 s' g1 (by simp) hc g4
          refine ⟨h1, b ++ bytes, ?_, by rw [h3, g3]; simp⟩
          rw [g2] at h2
          simp only [handedOver]
          rw [hb, h2]; rfl
        split at hr
        · rename_i heq
          split at heq
          · rw [flush_ok _ (by simpa using hf)] at heq
            simp only [Prod.mk.injEq, true_and] at heq
            exact this _ (by rw [← heq]; exact hf) (by rw [← heq]) (by rw [← heq]; simp) hr
          · simp only [Prod.mk.injEq, true_and] at heq
            exact this _ (by rw [← heq]; exact hf) (by rw [← heq]) (by rw [← heq]; simp) hr
        · cases hr
        · cases hr
    | alert a =>
      simp only [OutOp.apply, TlsStream.writeAlert] at hr
      rw [protectRecord_eq] at hr
      obtain ⟨rfl, hc⟩ := hc
      have hbuf := he rfl
      cases hb : (encodeRecord s.protection .alert [(AlertLevel.getFromError a).code, a.asU8]).1 with
      | err x => rw [hb] at hr; cases hr
      | panic => rw [hb] at hr; cases hr
      | ok b =>
        rw [hb] at hr
        simp only [] at hr
        rw [writeAll_ok _ _ (by simpa using hf)] at hr
        simp only [] at hr
        obtain ⟨h1, bytes, h2, h3⟩ := ih true _ s' (by simpa using hf) (by simpa using hbuf) hc hr
        refine ⟨h1, b ++ bytes, ?_, by rw [h3]; simp [hbuf]⟩
        simp only [handedOver]
        simp only [] at h2
        rw [hb, h2]; rfl
    | write x =>
      obtain ⟨rfl, hc⟩ := hc
      have hbuf := he rfl
      simp only [OutOp.apply, TlsStream.tlsWrite] at hr
      cases hp : s.protection with
      | none => rw [hp] at hr; cases hr
      | some p =>
        rw [hp] at hr
        simp only [] at hr
        cases hq : p.encrypt (Record.new .applicationData x) with
        | mk rr p' =>
          rw [hq] at hr
          cases rr with
          | err x => cases hr
          | panic => cases hr
          | ok b =>
            simp only [] at hr
            rw [writeAll_ok _ _ hf] at hr
            simp only [] at hr
            obtain ⟨h1, bytes, h2, h3⟩ := ih true _ s' (by simpa using hf) (by simpa using hbuf) hc hr
            refine ⟨h1, b ++ bytes, ?_, by rw [h3]; simp [hbuf]⟩
            simp only [handedOver, encodeRecord]
            simp only [] at h2
            rw [hq]
            simp only [Res.ok_bind]
            rw [h2]; rfl

end RecProof

/-- C24 for sequences in which alerts and application writes happen only while nothing is buffered. Missing: sequences in which they follow an
unflushed `write_record`, where they overtake it (`C24_false`). -/
theorem C24_order_partial : C24_for (calm true) := by
  intro s s' ops hf hb hc hr
  -- split off the last flush
  have hsplit : ∀ (ops : List OutOp) (s s' : TlsStream), runOut s (ops ++ [.flush]) = .ok s' → ∃ m, runOut s ops = .ok m ∧ m.flush.2 = s' := by
    intro ops
    induction ops with
    | nil =>
      intro s s' h
      refine ⟨s, rfl, ?_⟩
      simp only [List.nil_append, runOut, OutOp.apply] at h
      split at h
      · next heq => rw [heq]; simpa using h
      · cases h
      · cases h
    | cons o os ih =>
      intro s s' h
      simp only [List.cons_append, runOut] at h ⊢
      split at h
      · exact ih _ _ h
      · cases h
      · cases h
  obtain ⟨m, hm, hfl⟩ := hsplit ops s s' hr
  obtain ⟨h1, bytes, h2, h3⟩ := calm_run ops true s m hf (fun _ => hb) hc hm
  refine ⟨bytes, h2, ?_⟩
  rw [flush_ok m h1] at hfl
  rw [← hfl]
  simp only []
  rw [h3, hb]; simp

example : calm true [.alert .closeNotify, .record .handshake [1], .record .handshake [2], .flush, .write [3]] := by simp [calm]

/-- C24 is false: an alert overtakes a record that is still buffered. -/
theorem C24_false : ¬ C24_statement := by
  intro h
  obtain ⟨bytes, h1, h2⟩ := h (TlsStream.new ⟨[], [], []⟩) _ [.record .handshake [1], .alert .decodeError] rfl rfl trivial
    (by decide +kernel : _ = Res.ok ⟨⟨[], [], [21, 3, 3, 0, 2, 2, 51, 22, 3, 3, 0, 1, 1]⟩, none, []⟩)
  revert h1
  rw [show bytes = [21, 3, 3, 0, 2, 2, 51, 22, 3, 3, 0, 1, 1] by simpa [TlsStream.new] using h2.symm]
  decide

end ATLS
