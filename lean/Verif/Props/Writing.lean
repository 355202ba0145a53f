import Verif.Props.PostHandshake
/-
C89: what an RFC 8446 peer gets of what the application writes.
-/
namespace ATLS
open ATLS.Spec ATLS.Model ATLS.KsProof ATLS.RecProof FlowProof RfcProof

/-- The write side of the stream is at the sequence number `seq` of the suite and traffic secret. -/
structure WritesTo (code : Nat) (u : Tls13.Suite) (s : TlsStream) (secret : Bytes) (seq : Nat) : Prop where
  suite : (code, u) ∈ Tls13.suites
  prot : ∃ p cs, s.protection = some p ∧ CipherSuite.new code = .ok cs ∧ cs.getCipher = .ok p.cipher ∧ (wKey p).key = Tls13.writeKey u.hash secret u.keyLength ∧
    (wKey p).iv = Tls13.writeIv u.hash secret 12 ∧ (wKey p).sequenceNumber.toNat = seq

/-- The stream after the calls, the results of the writes among them, and what was to be written. -/
def afterCalls : List Call → TlsStream → TlsStream
  | [], s => s
  | .read n :: cs, s => afterCalls cs (s.tlsRead n).2
  | .write data :: cs, s => afterCalls cs (s.tlsWrite data).2
def writeResults : List Call → TlsStream → List (Res TlsError Unit)
  | [], _ => []
  | .read n :: cs, s => writeResults cs (s.tlsRead n).2
  | .write data :: cs, s => (s.tlsWrite data).1 :: writeResults cs (s.tlsWrite data).2
def payloads (calls : List Call) : List Bytes := calls.filterMap fun c => match c with | .write data => some data | .read _ => none

/-- C89 for the payloads satisfying `P`: whatever the application reads in between, every write succeeds as long as the socket takes what is written, and
the bytes on the wire are protected records of RFC 8446 (at most 2^14 + 256 bytes after the header, section 5.2) with the data, in order. -/
def C89_for (P : Nat → List Bytes → Prop) : Prop :=
  ∀ (code : Nat) (u : Tls13.Suite) (s : TlsStream) (secret : Bytes) (seq : Nat) (calls : List Call),
    WritesTo code u s secret seq → secret.length = u.hash.out → s.stream.failures = [] → seq + (payloads calls).length < 2 ^ 63 → P code (payloads calls) →
    (∀ x ∈ writeResults calls s, x = .ok ()) ∧
    ∃ chunks records : List Bytes, chunks.flatten = (payloads calls).flatten ∧ Tls13.Sends u secret seq (chunks.map .data) records ∧ (∀ w ∈ records, w.length ≤ 5 + (2 ^ 14 + 256)) ∧
      (afterCalls calls s).stream.written = s.stream.written ++ records.flatten

/-- C89 in full. -/
def C89_statement : Prop := C89_for fun _ _ => True

/-- At most 2^14 bytes per write, and with ChaCha20-Poly1305 not one less than a multiple of 64. -/
structure Short (code : Nat) (data : List Bytes) : Prop where
  size : ∀ d ∈ data, d.length ≤ 2 ^ 14
  chacha : code = 0x1303 → ∀ d ∈ data, d.length % 64 ≠ 63

namespace ChannelProof

theorem readNonce_write {p q : RecordPayloadProtection} {a b : Bytes} (h : p.readNonce = .ok (a, b, q)) : wKey q = wKey p ∧ q.cipher = p.cipher := by
  unfold RecordPayloadProtection.readNonce at h
  split at h <;> rename_i hb
  · obtain ⟨⟨n, k⟩, _, h⟩ := Res.bind_eq_ok.1 h
    obtain ⟨rfl, rfl, rfl⟩ := by simpa using Res.ok.inj h
    unfold wKey RecordPayloadProtection.setKeys RecordPayloadProtection.keys
    cases p.applicationKeys <;> simp [hb]
  · obtain ⟨⟨n, k⟩, _, h⟩ := Res.bind_eq_ok.1 h
    obtain ⟨rfl, rfl, rfl⟩ := by simpa using Res.ok.inj h
    unfold wKey RecordPayloadProtection.setKeys RecordPayloadProtection.keys
    cases p.applicationKeys <;> simp [hb]

theorem decrypt_write (p : RecordPayloadProtection) (r : Record) : wKey (p.decrypt r).2 = wKey p ∧ (p.decrypt r).2.cipher = p.cipher := by
  unfold RecordPayloadProtection.decrypt
  split
  · exact ⟨rfl, rfl⟩
  · simp only []
    rcases h : p.readNonce with ⟨a, b, q⟩ | e | _
    · have := readNonce_write h
      simp only []
      split <;> exact this
    · exact ⟨rfl, rfl⟩
    · exact ⟨rfl, rfl⟩

/-- Reading leaves the write side alone. -/
theorem read_write (s : TlsStream) (p : RecordPayloadProtection) (hp : s.protection = some p) (n : Nat) :
    (s.tlsRead n).2.stream.written = s.stream.written ∧ (s.tlsRead n).2.stream.failures = s.stream.failures ∧
    ∃ q, (s.tlsRead n).2.protection = some q ∧ wKey q = wKey p ∧ q.cipher = p.cipher := by
  have key : ∀ s1 : TlsStream, s1.stream.written = s.stream.written → s1.stream.failures = s.stream.failures → s1.protection = s.protection → ∀ rx,
      let x := (match Record.fromRaw rx with
        | .err e => (.err e, s1)
        | .panic => (.panic, s1)
        | .ok (_, record) =>
          if record.len ≠ record.fraqment.length then (.panic, s1)
          else match s1.protection with
            | some p =>
              match p.decrypt record with
              | (.err e, p') => (.err e, { s1 with protection := some p' })
              | (.panic, p') => (.panic, { s1 with protection := some p' })
              | (.ok (t, data), p') =>
                let s := { s1 with protection := some p' }
                if t ≠ .applicationData then (.err .unexpectedMessage, s)
                else (TlsStream.deliver (Record.new t data) n, s)
            | none =>
              if record.contentType ≠ .handshake then (.err .unexpectedMessage, s1)
              else (TlsStream.deliver record n, s1) : Res TlsError Bytes × TlsStream).2
      x.stream.written = s.stream.written ∧ x.stream.failures = s.stream.failures ∧ ∃ q, x.protection = some q ∧ wKey q = wKey p ∧ q.cipher = p.cipher := by
    intro s1 h1 h2 h3 rx
    have h3' : s1.protection = some p := h3.trans hp
    rcases Record.fromRaw rx with ⟨_, record⟩ | e | _
    · simp only []
      split
      · exact ⟨h1, h2, p, h3', rfl, rfl⟩
      · rw [h3']
        simp only []
        have hd := decrypt_write p record
        rcases hdd : p.decrypt record with ⟨⟨t, data⟩ | e | _, p'⟩ <;> rw [hdd] at hd
        · simp only []
          split <;> exact ⟨h1, h2, p', rfl, hd.1, hd.2⟩
        · exact ⟨h1, h2, p', rfl, hd.1, hd.2⟩
        · exact ⟨h1, h2, p', rfl, hd.1, hd.2⟩
    · exact ⟨h1, h2, p, h3', rfl, rfl⟩
    · exact ⟨h1, h2, p, h3', rfl, rfl⟩
  unfold TlsStream.tlsRead TlsStream.tcpRead
  rcases s.stream.incoming with _ | ⟨c, cs⟩
  · exact ⟨rfl, rfl, p, hp, rfl, rfl⟩
  · simp only []
    by_cases hg : c.take 4096 = []
    · rw [if_pos hg]
      exact ⟨rfl, rfl, p, hp, rfl, rfl⟩
    · rw [if_neg hg]
      exact key { s with stream := { s.stream with incoming := if c.drop 4096 = [] then cs else c.drop 4096 :: cs } } rfl rfl rfl _

/-- One write. -/
theorem write_record {code : Nat} {u : Tls13.Suite} {s : TlsStream} {secret : Bytes} {seq : Nat} (h : WritesTo code u s secret seq) (hsec : secret.length = u.hash.out)
    (hf : s.stream.failures = []) (hseq : seq < 2 ^ 63) (data : Bytes) (hl : data.length ≤ 2 ^ 14) (h64 : code = 0x1303 → data.length % 64 ≠ 63) :
    ∃ w, s.tlsWrite data = (.ok (), (s.tlsWrite data).2) ∧ WritesTo code u (s.tlsWrite data).2 secret (seq + 1) ∧ (s.tlsWrite data).2.stream.failures = [] ∧
      (s.tlsWrite data).2.stream.written = s.stream.written ++ w ∧ w.length = data.length + 22 ∧
      Tls13.Protected u.protect (Tls13.writeKey u.hash secret u.keyLength) (Tls13.writeIv u.hash secret 12) seq 23#8 data w := by
  obtain ⟨hmem, p, cs, hp, hcs, hc, hk, hiv, hsq⟩ := h
  obtain ⟨cs', t, c, hlib⟩ := lib_suite hmem
  have e1 : cs' = cs := by have := hlib.parsed; rw [hcs] at this; exact (Res.ok.inj this).symm
  subst e1
  have e2 : c = p.cipher := by have := hlib.cipher; rw [hc] at this; exact (Res.ok.inj this).symm
  subst e2
  have hok : KeyOk cs' (wKey p) := by
    have ht := out_le t
    rw [hlib.hash, ← hsec] at ht
    have h2 := keyLen_le cs'
    constructor
    · rw [hk, ← hlib.hash, ← hlib.keyLength]
      exact (expandQ_eq t _ "key" [] _ (by omega) (by simp [String.length]) (by omega)).2
    · rw [hiv, ← hlib.hash]
      exact (expandQ_eq t _ "iv" [] 12 (by omega) (by simp [String.length]) (by omega)).2
  have hW : Writable cs' s p := ⟨hp, hc, hok, by omega, hf⟩
  obtain ⟨w, s', p', g1, g2, g3, g4, ⟨ct, tag, hw, he, hl1, hl2⟩, g6⟩ := tlsWrite_spec hW data (by omega)
  have hns := EarlyProof.next_seq (k := wKey p) (by omega)
  rw [g1]
  refine ⟨w, rfl, ⟨hmem, p', cs', g4, hcs, by rw [g6.cipher]; exact hc, by rw [g6.w]; exact hk, by rw [g6.w]; exact hiv, by rw [g6.w, hns, hsq]⟩, by rw [g2]; exact hf,
    by rw [g2], ?_, ct, tag, 0, by omega, ?_, ?_⟩
  · rw [hw]
    simp only [List.length_append, hl1, hl2, beBytes_length, List.length_cons, List.length_nil]
    omega
  · rw [hw]
    simp [Tls13.protectedHeader]
  · rw [← hk, ← hiv, ← hsq, ← protect_eq hlib hok _ _ _ (by simp; omega) (by simp [Tls13.protectedHeader, beBytes_length])]
    · unfold aead
      have : [23#8, 3#8, 3#8] ++ beBytes 2 (data.length + 1 + 0 + 16) = Tls13.protectedHeader (data.length + 1 + 0) := rfl
      rw [← this]
      exact by rw [show p.cipher.encrypt (wKey p).key (Tls13.nonce (wKey p).iv (wKey p).sequenceNumber.toNat) (data ++ [23#8] ++ zeros 0) ([23#8, 3#8, 3#8] ++ beBytes 2 (data.length + 1 + 0 + 16)) = _ from he]
    · intro hcode
      have := h64 hcode
      simp
      omega

theorem forall_mem {α β : Type} {R : α → β → Prop} {l : List α} {m : List β} (h : List.Forall₂ R l m) : ∀ a ∈ l, ∃ b ∈ m, R a b := by
  induction h with
  | nil => simp
  | cons a _ ih =>
    intro x hx
    rcases List.mem_cons.1 hx with rfl | hx
    · exact ⟨_, List.mem_cons_self .., a⟩
    · obtain ⟨b, hb, hr⟩ := ih x hx
      exact ⟨b, List.mem_cons_of_mem _ hb, hr⟩

end ChannelProof

/-- C89, the exact records for the payloads in `Short`: one record per write. -/
theorem C89_records (code : Nat) (u : Tls13.Suite) (secret : Bytes) (hsec : secret.length = u.hash.out) (calls : List Call) :
    ∀ (s : TlsStream) (seq : Nat), WritesTo code u s secret seq → s.stream.failures = [] → seq + (payloads calls).length < 2 ^ 63 → Short code (payloads calls) →
    (∀ x ∈ writeResults calls s, x = .ok ()) ∧ ∃ records, Tls13.Sends u secret seq ((payloads calls).map .data) records ∧
      List.Forall₂ (fun w d => w.length = d.length + 22) records (payloads calls) ∧
      (afterCalls calls s).stream.written = s.stream.written ++ records.flatten ∧ WritesTo code u (afterCalls calls s) secret (seq + (payloads calls).length) := by
  induction calls with
  | nil => exact fun s seq h _ _ _ => ⟨by simp [writeResults], [], rfl, .nil, by simp [afterCalls], h⟩
  | cons c calls ih =>
    intro s seq h hf hq hs
    cases c with
    | read n =>
      obtain ⟨hmem, p, cs, hp, hcs, hc, hk, hiv, hsq⟩ := h
      obtain ⟨r1, r2, q, r3, r4, r5⟩ := ChannelProof.read_write s p hp n
      have := ih (s.tlsRead n).2 seq ⟨hmem, q, cs, r3, hcs, by rw [r5]; exact hc, by rw [r4]; exact hk, by rw [r4]; exact hiv, by rw [r4]; exact hsq⟩ (r2.trans hf) hq hs
      rw [r1] at this
      exact this
    | write data =>
      have e : payloads (.write data :: calls) = data :: payloads calls := rfl
      rw [e, List.length_cons] at hq
      rw [e] at hs
      obtain ⟨w, w1, w2, w3, w4, w5, w6⟩ := ChannelProof.write_record h hsec hf (by omega) data (hs.size _ (by simp)) fun hc => hs.chacha hc _ (by simp)
      obtain ⟨i1, records, i2, i3, i4, i5⟩ := ih _ (seq + 1) w2 w3 (by omega) ⟨fun d hd => hs.size d (by simp [hd]), fun hc d hd => hs.chacha hc d (by simp [hd])⟩
      rw [e]
      refine ⟨?_, w :: records, ⟨w, records, rfl, w6, i2⟩, .cons w5 i3, ?_, ?_⟩
      · intro x hx
        rcases List.mem_cons.1 hx with rfl | hx
        · rw [w1]
        · exact i1 x hx
      · show (afterCalls calls (s.tlsWrite data).2).stream.written = _
        rw [i4, w4, List.flatten_cons, List.append_assoc]
      · rw [List.length_cons, show seq + ((payloads calls).length + 1) = seq + 1 + (payloads calls).length by omega]
        exact i5

/-- C89 for the payloads in `Short`. Missing: larger payloads, which are not split (`C89_false`), and the ChaCha20-Poly1305 lengths of C13. -/
theorem C89_written_partial : C89_for Short := by
  intro code u s secret seq calls h hsec hf hq hs
  obtain ⟨h1, records, h2, h3, h4, _⟩ := C89_records code u secret hsec calls s seq h hf hq hs
  refine ⟨h1, payloads calls, records, rfl, h2, ?_, h4⟩
  intro w hw
  obtain ⟨d, hd, e⟩ := ChannelProof.forall_mem h3 w hw
  have := hs.size d hd
  omega

namespace ChannelProof

/-- A stream that writes with this suite and secret. -/
theorem writes_exist {code : Nat} {u : Tls13.Suite} (h : (code, u) ∈ Tls13.suites) (secret : Bytes) (incoming : List Bytes) :
    ∃ s, WritesTo code u s secret 0 ∧ s.stream = ⟨incoming, [], []⟩ := by
  obtain ⟨cs, t, c, hlib⟩ := lib_suite h
  exact ⟨⟨⟨incoming, [], []⟩, some ⟨⟨⟨.sha256, []⟩, ⟨.sha256, []⟩, ⟨.sha256, []⟩⟩, c,
    ⟨⟨[], Tls13.writeKey u.hash secret u.keyLength, Tls13.writeIv u.hash secret 12, 0⟩, ⟨[], Tls13.writeKey u.hash secret u.keyLength, Tls13.writeIv u.hash secret 12, 0⟩⟩,
    true, none⟩, []⟩, ⟨h, _, cs, rfl, hlib.parsed, hlib.cipher, rfl, rfl, rfl⟩, rfl⟩

end ChannelProof

/-- The hypotheses of C89 are met: with every suite, two writes around a read of whatever arrived. -/
example (code : Nat) (u : Tls13.Suite) (hu : (code, u) ∈ Tls13.suites) (secret : Bytes) (incoming : List Bytes) :
    ∃ s, WritesTo code u s secret 0 ∧ s.stream.failures = [] ∧ s.stream.incoming = incoming ∧
      payloads [.write (ascii "GET"), .read 100, .write (ascii "/")] = [ascii "GET", ascii "/"] ∧ Short code [ascii "GET", ascii "/"] := by
  obtain ⟨s, h1, h2⟩ := ChannelProof.writes_exist hu secret incoming
  refine ⟨s, h1, by rw [h2], by rw [h2], rfl, ⟨by decide, fun _ => by decide⟩⟩

/-- C89 does not hold: `tls_write` puts any payload into one record, so 2^14 + 300 bytes with TLS_AES_128_GCM_SHA256 make a record that every RFC 8446 peer
must refuse (section 5.2, `record_overflow`). -/
theorem C89_false : ¬ C89_statement := by
  intro H
  obtain ⟨u, hmem, hout⟩ : ∃ u, (0x1301, u) ∈ Tls13.suites ∧ u.hash.out = 32 := ⟨_, List.mem_cons_self .., rfl⟩
  obtain ⟨s, h1, h2⟩ := ChannelProof.writes_exist hmem (zeros 32) []
  obtain ⟨_, chunks, records, _, hs, hl, hw⟩ := H 0x1301 u s (zeros 32) 0 [.write (zeros (2 ^ 14 + 300))] h1 (by rw [hout]; simp [zeros]) (by rw [h2]) (by simp [payloads]) trivial
  obtain ⟨hmem, p, cs, hp, hcs, hc, hk, hiv, hsq⟩ := h1
  obtain ⟨cs', t, c, hlib⟩ := lib_suite hmem
  have e1 : cs' = cs := by have := hlib.parsed; rw [hcs] at this; exact (Res.ok.inj this).symm
  subst e1
  have e2 : c = p.cipher := by have := hlib.cipher; rw [hc] at this; exact (Res.ok.inj this).symm
  subst e2
  have hok : KeyOk cs' (wKey p) := by
    have h2 := keyLen_le cs'
    have h3 := out_le t
    constructor
    · rw [hk, ← hlib.hash, ← hlib.keyLength]
      exact (expandQ_eq t _ "key" [] _ (by simp [zeros]) (by simp [String.length]) (by omega)).2
    · rw [hiv, ← hlib.hash]
      exact (expandQ_eq t _ "iv" [] 12 (by simp [zeros]) (by simp [String.length]) (by omega)).2
  have hW : Writable cs' s p := ⟨hp, hc, hok, by omega, by rw [h2]⟩
  obtain ⟨w, s', p', g1, g2, g3, g4, ⟨ct, tag, hwe, he, hl1, hl2⟩, g6⟩ := tlsWrite_spec hW (zeros (2 ^ 14 + 300)) (by rw [zeros, List.length_replicate]; omega)
  have hw' : w = records.flatten := by
    have : (afterCalls [.write (zeros (2 ^ 14 + 300))] s).stream.written = s.stream.written ++ w := by
      show (s.tlsWrite _).2.stream.written = _
      rw [g1, g2]
    rw [this] at hw
    exact List.append_cancel_left hw
  rw [hwe] at hw'
  cases chunks with
  | nil =>
    have : records = [] := hs
    rw [this] at hw'
    simp at hw'
  | cons x xs =>
    obtain ⟨w1, rest, rfl, ⟨ct1, tag1, n, hn, hw1, he1⟩, _⟩ := hs
    have hlw := hl w1 (by simp)
    obtain ⟨t1, t2⟩ := tag_eq he1
    rw [List.flatten_cons, hw1] at hw'
    rw [hw1] at hlw
    have h5 := congrArg (fun l => beNat ((l.drop 3).take 2)) hw'
    have hz : (zeros (2 ^ 14 + 300)).length = 2 ^ 14 + 300 := by simp only [zeros, List.length_replicate]
    rw [hz] at h5
    simp only [List.length_append, t1, t2, Tls13.protectedHeader, beBytes_length, List.length_cons, List.length_nil, zeros, List.length_replicate] at hlw
    simp only [Tls13.protectedHeader, List.append_assoc, List.cons_append, List.nil_append, List.drop_succ_cons, List.drop_zero] at h5
    rw [List.take_append_of_le_length (by simp [beBytes_length]), List.take_append_of_le_length (by simp [beBytes_length]), List.take_of_length_le (by simp [beBytes_length]),
      List.take_of_length_le (by simp [beBytes_length]), beNat_beBytes, beNat_beBytes] at h5
    omega

end ATLS
