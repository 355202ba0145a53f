import Verif.Props.PostHandshake
import Verif.Props.StreamRead
import Verif.Spec.OuterType
/-
C121: the type in the header of a protected record.
-/
namespace ATLS
open ATLS.Spec ATLS.Model ATLS.KsProof ATLS.RecProof FlowProof RfcProof

/-- C121 in full: with keys in use, application data is only taken from a record whose header has the type application_data. -/
def C121_statement : Prop :=
  ∀ (code : Nat) (u : Tls13.Suite) (s s' : TlsStream) (secret : Bytes) (seq size : Nat) (data : Bytes), ReadsFrom code u s secret seq → secret.length = u.hash.out →
    seq < 2 ^ 63 → s.tlsRead size = (.ok data, s') → ∃ rx, nextRead s rx ∧ rx.head? = some 23#8

namespace ChannelProof

theorem key_ok {code : Nat} {u : Tls13.Suite} {cs : CipherSuite} {t : HashType} {c : Cipher} (hlib : LibSuite code u cs t c) {secret : Bytes} (hsec : secret.length = u.hash.out)
    {k : Key} (hk : k.key = Tls13.writeKey u.hash secret u.keyLength) (hiv : k.iv = Tls13.writeIv u.hash secret 12) : KeyOk cs k := by
  have ht := out_le t
  rw [hlib.hash, ← hsec] at ht
  have h2 := keyLen_le cs
  constructor
  · rw [hk, ← hlib.hash, ← hlib.keyLength]
    exact (expandQ_eq t _ "key" [] _ (by omega) (by simp [String.length]) (by omega)).2
  · rw [hiv, ← hlib.hash]
    exact (expandQ_eq t _ "iv" [] 12 (by omega) (by simp [String.length]) (by omega)).2

/-- A record is opened whatever the header says, as long as it was sealed with that header. -/
theorem opens_as {cs : CipherSuite} {p : RecordPayloadProtection} (hc : cs.getCipher = .ok p.cipher) (hk : KeyOk cs (rKey p))
    (hn : (rKey p).sequenceNumber.toNat < 2 ^ 63) {t o : RecordType} {v1 v2 : Byte} (ht : t ≠ .invalid) {content wire : Bytes}
    (hw : Tls13.ProtectedAs o.code v1 v2 (aead p.cipher) (rKey p).key (rKey p).iv (rKey p).sequenceNumber.toNat t.code content wire) :
    ∃ r p', Record.fromRaw wire = .ok (wire.length, r) ∧ r.len = r.fraqment.length ∧
      p.decrypt r = (.ok (t, content), p') ∧ Step p p' (wKey p) (next (rKey p)) := by
  obtain ⟨header, ct, tag, n, hl, hh, hwe, he⟩ := hw
  have hs : (rKey p).sequenceNumber ≠ BitVec.allOnes 64 := by intro e; rw [e] at hn; simp at hn
  obtain ⟨p', hp, hstep⟩ := readNonce_eq p hk.2 hs
  have hhl : header.length = 5 := by rw [hh]; simp [beBytes_length]
  have he' : p.cipher.encrypt (rKey p).key (Tls13.nonce (rKey p).iv (rKey p).sequenceNumber.toNat) (content ++ [t.code] ++ zeros n) header = .ok (ct, tag) := by
    unfold aead at he
    revert he
    generalize p.cipher.encrypt (rKey p).key (Tls13.nonce (rKey p).iv (rKey p).sequenceNumber.toNat) (content ++ [t.code] ++ zeros n) header = q
    intro he
    cases q with
    | ok a => simp only [Option.some.injEq] at he; rw [he]
    | err e => cases he
    | panic => cases he
  obtain ⟨ct', tag', g1, hl1, hl2, hd⟩ := C15_aead_round_trip cs p.cipher hc (rKey p).key (Tls13.nonce (rKey p).iv (rKey p).sequenceNumber.toNat)
    (content ++ [t.code] ++ zeros n) header (suiteKeys hk _) (by rw [hhl]; simp; omega)
  rw [he'] at g1
  obtain ⟨rfl, rfl⟩ := Prod.mk.inj (Res.ok.inj g1)
  have hlen : (ct ++ tag).length = content.length + 1 + n + 16 := by rw [List.length_append, hl1, hl2]; simp; omega
  have hraw := fromRaw_header o v1 v2 (ct ++ tag) [] (by omega)
  rw [hlen] at hraw
  have hh' : header = [o.code, v1, v2, BitVec.ofNat 8 ((content.length + 1 + n + 16) / 256), BitVec.ofNat 8 (content.length + 1 + n + 16)] := by
    rw [hh, beBytes2]; rfl
  rw [List.append_nil, ← hh'] at hraw
  refine ⟨⟨o, v1.toNat * 256 + v2.toNat, content.length + 1 + n + 16, header, ct ++ tag⟩, p', ?_, ?_, ?_, hstep⟩
  · rw [hwe, List.append_assoc, hraw]
    simp only [List.length_append, hhl]
    congr 2
    rw [← hlen, List.length_append]
  · simpa using hlen.symm
  · unfold RecordPayloadProtection.decrypt
    rw [if_neg (by simp only []; rw [hlen]; omega)]
    simp only []
    rw [hp]
    have h1 : (ct ++ tag).take ((ct ++ tag).length - 16) = ct := by
      rw [hlen, show content.length + 1 + n + 16 - 16 = ct.length by rw [hl1]; simp; omega]; simp
    simp only [h1, List.drop_left]
    rw [hd]
    simp only []
    rw [scan_eq content t ht n]
    simp

end ChannelProof

open ChannelProof in
/-- C121: application data is delivered from a record whose header has any of the types the library knows (0, 20, 21, 22, 23) and any version, if it
was sealed with that header. So a "change_cipher_spec", "alert" or "handshake" record is read as application data. -/
theorem C121_any_type (code : Nat) (u : Tls13.Suite) (s : TlsStream) (secret : Bytes) (seq size : Nat) (outer v1 v2 : Byte) (data w : Bytes) (rest : List Bytes)
    (h : ReadsFrom code u s secret seq) (hsec : secret.length = u.hash.out) (hseq : seq < 2 ^ 63) (ho : outer ∈ [0#8, 20#8, 21#8, 22#8, 23#8])
    (hw : Tls13.ProtectedAs outer v1 v2 u.protect (Tls13.writeKey u.hash secret u.keyLength) (Tls13.writeIv u.hash secret 12) seq 23#8 data w)
    (hi : s.stream.incoming = w :: rest) (hx : data.length ≤ size) (hwl : w.length ≤ 4096) (h64 : code = 0x1303 → w.length % 64 ≠ 21) :
    (s.tlsRead size).1 = .ok data ∧ ReadsFrom code u (s.tlsRead size).2 secret (seq + 1) ∧ (s.tlsRead size).2.stream.incoming = rest := by
  obtain ⟨hmem, p, cs, hp, hcs, hc, hk, hiv, hsq⟩ := h
  obtain ⟨cs', t, c, hlib⟩ := lib_suite hmem
  have e1 : cs' = cs := by have := hlib.parsed; rw [hcs] at this; exact (Res.ok.inj this).symm
  subst e1
  have e2 : c = p.cipher := by have := hlib.cipher; rw [hc] at this; exact (Res.ok.inj this).symm
  subst e2
  have hok := key_ok hlib hsec hk hiv
  obtain ⟨o, rfl⟩ : ∃ o : RecordType, o.code = outer := by
    simp only [List.mem_cons, List.not_mem_nil, or_false] at ho
    rcases ho with rfl | rfl | rfl | rfl | rfl
    exacts [⟨.invalid, rfl⟩, ⟨.changeCipherSpec, rfl⟩, ⟨.alert, rfl⟩, ⟨.handshake, rfl⟩, ⟨.applicationData, rfl⟩]
  have hne : w ≠ [] := by
    obtain ⟨header, ct, tag, n, _, rfl, rfl, _⟩ := hw
    simp
  have hw' : Tls13.ProtectedAs o.code v1 v2 (aead p.cipher) (rKey p).key (rKey p).iv (rKey p).sequenceNumber.toNat RecordType.applicationData.code data w := by
    obtain ⟨header, ct, tag, pad, hl, hh, hwe, he⟩ := hw
    refine ⟨header, ct, tag, pad, hl, hh, hwe, ?_⟩
    rw [← hk, ← hiv, ← hsq] at he
    have hhl : header.length = 5 := by rw [hh]; simp [beBytes_length]
    have hlen : (data ++ [23#8] ++ zeros pad).length = data.length + 1 + pad := by simp; omega
    rw [show RecordType.applicationData.code = 23#8 from rfl, protect_eq hlib hok _ _ _ (by rw [hlen]; omega) (by omega), he]
    intro hc
    have h64 := h64 hc
    obtain ⟨t1, t2⟩ := tag_eq he
    rw [hlen] at t1 ⊢
    rw [hwe] at h64
    simp only [List.length_append, t1, t2, hhl] at h64
    omega
  obtain ⟨r, q, r1, r3, r4, r5⟩ := opens_as hc hok (by omega) (by decide) hw'
  have hns := EarlyProof.next_seq (k := rKey p) (by omega)
  have hfrom : ∀ s' : TlsStream, s'.protection = some q → ReadsFrom code u s' secret (seq + 1) := fun s' hs' =>
    ⟨hmem, q, cs', hs', hcs, by rw [r5.cipher]; exact hc, by rw [r5.r]; exact hk, by rw [r5.r]; exact hiv, by rw [r5.r, hns, hsq]⟩
  unfold TlsStream.tlsRead TlsStream.tcpRead
  rw [hi]
  simp only [List.take_of_length_le hwl, List.drop_of_length_le hwl, hne, if_true, if_false, r1, r3, ne_eq, not_true_eq_false, hp, r4]
  refine ⟨?_, hfrom _ rfl, by first | rfl | trivial⟩
  unfold TlsStream.deliver
  rw [if_neg (by simpa [Record.new] using hx)]
  rfl

namespace ChannelProof

/-- Such records exist. -/
theorem as_exists (u : Tls13.Suite) (secret : Bytes) (seq : Nat) (outer v1 v2 : Byte) (data : Bytes) (hd : data.length ≤ 2 ^ 14) :
    ∃ w, Tls13.ProtectedAs outer v1 v2 u.protect (Tls13.writeKey u.hash secret u.keyLength) (Tls13.writeIv u.hash secret 12) seq 23#8 data w ∧
      w.length = data.length + 22 ∧ w.head? = some outer := by
  obtain ⟨ct, tag, e⟩ : ∃ ct tag, u.protect (Tls13.writeKey u.hash secret u.keyLength) (Tls13.nonce (Tls13.writeIv u.hash secret 12) seq)
    (data ++ [23#8] ++ zeros 0) ([outer, v1, v2] ++ beBytes 2 (data.length + 1 + 0 + 16)) = some (ct, tag) := ⟨_, _, rfl⟩
  obtain ⟨l1, l2⟩ := tag_eq e
  refine ⟨_, ⟨_, ct, tag, 0, by omega, rfl, rfl, e⟩, ?_, rfl⟩
  simp only [List.length_append, l1, l2, beBytes_length, List.length_cons, List.length_nil, zeros, List.length_replicate]
  omega

end ChannelProof

/-- C121 is false: data in a "handshake" record is delivered (`C121_any_type`: with every suite). -/
theorem C121_false : ¬ C121_statement := by
  intro hst
  obtain ⟨u, hu⟩ : ∃ u : Tls13.Suite, u = ⟨hashSha256, 32, .chacha20Poly1305⟩ := ⟨_, rfl⟩
  have hmem : (0x1303, u) ∈ Tls13.suites := by rw [hu]; simp [Tls13.suites]
  have hsec : (zeros 32).length = u.hash.out := by rw [hu]; rfl
  obtain ⟨w, h1, h2, h3⟩ := ChannelProof.as_exists u (zeros 32) 0 22#8 3#8 3#8 [7#8] (by simp)
  obtain ⟨s, h4, h5⟩ := ChannelProof.reads_exist hmem (zeros 32) [w]
  simp only [List.length_cons, List.length_nil] at h2
  have hr := (C121_any_type _ _ _ _ _ 100 _ _ _ _ _ _ h4 hsec (by omega) (by simp) h1 h5 (by simp) (by omega) (by omega)).1
  obtain ⟨rx, ⟨c, cs, e1, e2⟩, e3⟩ := hst _ _ s (s.tlsRead 100).2 _ _ 100 _ h4 hsec (by omega) (Prod.ext hr rfl)
  rw [h5] at e1
  obtain ⟨rfl, _⟩ := List.cons.inj e1
  rw [e2, List.take_of_length_le (by omega), h3] at e3
  exact absurd e3 (by decide)

namespace ChannelProof

/-- What `tls_read` returns data from is a record that opens. -/
theorem read_opened {s s' : TlsStream} {p : RecordPayloadProtection} (hp : s.protection = some p) {data : Bytes} {size : Nat} (hr : s.tlsRead size = (.ok data, s')) :
    ∃ rx n r p', nextRead s rx ∧ Record.fromRaw rx = .ok (n, r) ∧ p.decrypt r = (.ok (.applicationData, data), p') := by
  unfold TlsStream.tlsRead at hr
  rcases ht : s.tcpRead 4096 with ⟨res, s1⟩
  rw [ht] at hr
  cases res with
  | err e => cases hr
  | panic => cases hr
  | ok rx =>
    obtain ⟨hn, hpr⟩ := tcpRead_inv s s1 4096 rx ht
    simp only [] at hr
    cases hf : Record.fromRaw rx with
    | err e => rw [hf] at hr; cases hr
    | panic => rw [hf] at hr; cases hr
    | ok nr =>
      obtain ⟨n, r⟩ := nr
      rw [hf] at hr
      obtain ⟨_, _, _, _, _, _, _, _, _, _, hflen, _⟩ := fromRaw_inv rx n r hf
      simp only [hflen, ne_eq, not_true_eq_false, if_false, hpr, hp] at hr
      rcases hd : p.decrypt r with ⟨res, p'⟩
      rw [hd] at hr
      cases res with
      | err e => cases hr
      | panic => cases hr
      | ok td =>
        obtain ⟨t, pl⟩ := td
        simp only [] at hr
        by_cases hty : t = .applicationData
        swap
        · rw [if_pos hty] at hr; cases hr
        · rw [if_neg (not_not.2 hty)] at hr
          have hdl := (Prod.mk.inj hr).1
          unfold TlsStream.deliver at hdl
          split_ifs at hdl with hb
          have hdl := Res.ok.inj hdl
          simp only [Record.new] at hdl
          subst hdl hty
          exact ⟨rx, n, r, p', hn, hf, hd⟩

end ChannelProof

open ChannelProof in
/-- C121, the part that holds: what is returned was sealed, under the peer's key and with the header that came, as application data, and the type in that
header is one the library knows. Missing: that it is application_data (`C121_false`). -/
theorem C121_sealed_partial (code : Nat) (u : Tls13.Suite) (s s' : TlsStream) (secret : Bytes) (seq size : Nat) (data : Bytes)
    (h : ReadsFrom code u s secret seq) (hsec : secret.length = u.hash.out) (hseq : seq < 2 ^ 63) (hr : s.tlsRead size = (.ok data, s')) :
    ∃ (outer v1 v2 : Byte) (w rest : Bytes), nextRead s (w ++ rest) ∧ w.head? = some outer ∧ outer ∈ [0#8, 20#8, 21#8, 22#8, 23#8] ∧
      ((code = 0x1303 ∧ w.length % 64 = 21) ∨
        Tls13.ProtectedAs outer v1 v2 u.protect (Tls13.writeKey u.hash secret u.keyLength) (Tls13.writeIv u.hash secret 12) seq 23#8 data w) := by
  obtain ⟨hmem, p, cs, hp, hcs, hc, hk, hiv, hsq⟩ := h
  obtain ⟨cs', t, c, hlib⟩ := lib_suite hmem
  have e1 : cs' = cs := by have := hlib.parsed; rw [hcs] at this; exact (Res.ok.inj this).symm
  subst e1
  have e2 : c = p.cipher := by have := hlib.cipher; rw [hc] at this; exact (Res.ok.inj this).symm
  subst e2
  have hok := key_ok hlib hsec hk hiv
  obtain ⟨rx, n, r, p', g1, g2, g3⟩ := read_opened hp hr
  obtain ⟨b0, b1, b2, b3, b4, rest, k1, k2, k3, k4, k5, _⟩ := fromRaw_inv rx n r g2
  have b3lt := b3.isLt
  have b4lt := b4.isLt
  obtain ⟨ct, tag, inner, e1, e2, e3, e4, e5⟩ := C62_only_authentic cs' p p' ⟨hc, hok, by omega⟩ r ⟨by rw [k2]; rfl, by omega⟩ _ _ g3
  rcases e5 with ⟨_, pad, rfl⟩ | ⟨e5, _⟩
  swap
  · cases e5
  have hcl : ct.length = data.length + 1 + pad := by rw [← e4]; simp; omega
  have hfl : r.fraqment.length = data.length + 1 + pad + 16 := by rw [e1, List.length_append, hcl, e2]
  have hh : r.header = [b0, b1, b2] ++ beBytes 2 (data.length + 1 + pad + 16) := by
    rw [k2, beBytes2, ← hfl, k5, k4]
    have x3 : BitVec.ofNat 8 ((b3.toNat * 256 + b4.toNat) / 256) = b3 := by
      apply BitVec.eq_of_toNat_eq; simp only [BitVec.toNat_ofNat]; omega
    have x4 : BitVec.ofNat 8 (b3.toNat * 256 + b4.toNat) = b4 := by
      apply BitVec.eq_of_toNat_eq; simp only [BitVec.toNat_ofNat]; omega
    rw [x3, x4]
    rfl
  refine ⟨b0, b1, b2, r.header ++ ct ++ tag, rest, by rw [List.append_assoc r.header, ← e1, ← k1]; exact g1, by rw [k2]; rfl, ?_, ?_⟩
  · unfold RecordType.new at k3
    split_ifs at k3 with c1 c2 c3 c4 c5 <;> simp [*]
  · by_cases hx : code = 0x1303 ∧ (r.header ++ ct ++ tag).length % 64 = 21
    · exact Or.inl hx
    · refine Or.inr ⟨r.header, ct, tag, pad, by omega, hh, rfl, ?_⟩
      have hlen : (data ++ [23#8] ++ zeros pad).length = data.length + 1 + pad := by simp; omega
      have hhl : r.header.length = 5 := by rw [k2]; rfl
      rw [← hk, ← hiv, ← hsq, ← protect_eq hlib hok _ _ _ (by rw [hlen]; omega) (by omega)]
      · unfold aead
        rw [show (23#8 : Byte) = RecordType.applicationData.code from rfl, e3]
      · intro hc
        rw [hlen]
        simp only [List.length_append, hhl, hcl, e2, not_and] at hx
        have := hx hc
        omega

/-- C121: a record whose header has any other type is refused, before the key is used. -/
theorem C121_unknown (s : TlsStream) (size : Nat) (outer : Byte) (tail : Bytes) (rest : List Bytes) (ho : outer ∉ [0#8, 20#8, 21#8, 22#8, 23#8])
    (hi : s.stream.incoming = (outer :: tail) :: rest) :
    (s.tlsRead size).1 = .err .decodeError ∧ (s.tlsRead size).2.protection = s.protection := by
  have hraw : Record.fromRaw ((outer :: tail).take 4096) = .err .decodeError := by
    simp only [List.mem_cons, List.not_mem_nil, or_false, not_or] at ho
    obtain ⟨h0, h1, h2, h3, h4⟩ := ho
    unfold Record.fromRaw
    split_ifs with hl
    · rfl
    · have : idx ((outer :: tail).take 4096) 0 = (.ok outer : Res TlsError Byte) := by simp [idx]
      rw [this, Res.ok_bind]
      have : RecordType.new outer = (.err .decodeError : Res TlsError RecordType) := by simp [RecordType.new, h0, h1, h2, h3, h4]
      rw [this]
      rfl
  unfold TlsStream.tlsRead TlsStream.tcpRead
  rw [hi]
  have hne : (outer :: tail).take 4096 ≠ [] := by simp
  simp only [hne, if_false, hraw]
  exact ⟨trivial, trivial⟩

/-- The hypotheses of C121 are met with every suite and each of the types. -/
example (code : Nat) (u : Tls13.Suite) (hu : (code, u) ∈ Tls13.suites) (secret : Bytes) (hsec : secret.length = u.hash.out) (outer : Byte)
    (ho : outer ∈ [0#8, 20#8, 21#8, 22#8, 23#8]) :
    ∃ (s : TlsStream) (w : Bytes), ReadsFrom code u s secret 0 ∧ s.stream.incoming = [w] ∧ w.head? = some outer ∧ (s.tlsRead 100).1 = .ok (ascii "hello") := by
  obtain ⟨w, h1, h2, h3⟩ := ChannelProof.as_exists u secret 0 outer 3#8 3#8 (ascii "hello") (by decide)
  obtain ⟨s, h4, h5⟩ := ChannelProof.reads_exist hu secret [w]
  have h2 : w.length = 27 := h2
  exact ⟨s, w, h4, h5, h3, (C121_any_type _ _ _ _ _ 100 _ _ _ _ _ _ h4 hsec (by omega) ho h1 h5 (by decide) (by omega) (by omega)).1⟩

/-- A record of type heartbeat (24), which the library does not know. -/
example : ((⟨⟨[[24#8, 3#8, 3#8, 0#8, 1#8, 0#8]], [], []⟩, none, []⟩ : TlsStream).tlsRead 100).1 = .err .decodeError :=
  (C121_unknown _ 100 24#8 _ _ (by decide) rfl).1

end ATLS
