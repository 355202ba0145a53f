import Verif.Spec.PostHandshake
import Verif.Props.Channel
import Verif.Proof.Rfc
/-
C86: reading from a peer that sends what RFC 8446 allows after the handshake.
-/
namespace ATLS
open ATLS.Spec ATLS.Model ATLS.KsProof ATLS.RecProof FlowProof RfcProof

/-- The read side of the stream is where an RFC 8446 peer's write side with this suite and traffic secret is. -/
structure ReadsFrom (code : Nat) (u : Tls13.Suite) (s : TlsStream) (secret : Bytes) (seq : Nat) : Prop where
  suite : (code, u) ∈ Tls13.suites
  prot : ∃ p cs, s.protection = some p ∧ CipherSuite.new code = .ok cs ∧ cs.getCipher = .ok p.cipher ∧ (rKey p).key = Tls13.writeKey u.hash secret u.keyLength ∧
    (rKey p).iv = Tls13.writeIv u.hash secret 12 ∧ (rKey p).sequenceNumber.toNat = seq

/-- C86 for the peers satisfying `P`: when the records of a peer arrive one by one, reading as often gives the application data in them. -/
def C86_for (P : Nat → List Tls13.Sending → List Bytes → Prop) : Prop :=
  ∀ (code : Nat) (u : Tls13.Suite) (s : TlsStream) (secret : Bytes) (seq : Nat) (sendings : List Tls13.Sending) (records : List Bytes) (size : Nat),
    ReadsFrom code u s secret seq → secret.length = u.hash.out → Tls13.Sends u secret seq sendings records → s.stream.incoming = records →
    (∀ x ∈ sendings, x.content.length ≤ size) → seq + sendings.length < 2 ^ 63 → P code sendings records →
    delivered (readResults (List.replicate sendings.length (.read size)) s) = sendings.filterMap Tls13.Sending.dataOf

/-- C86 in full. -/
def C86_statement : Prop := C86_for fun _ _ _ => True

/-- What the reads give: data, or UnexpectedMessage for anything else. -/
def expectedRead : Tls13.Sending → Res TlsError Bytes
  | .data content => .ok content
  | _ => .err .unexpectedMessage

/-- The peers the library reads from: no KeyUpdate, records that fit the read buffer, and with ChaCha20-Poly1305 no inner plaintext whose length is
a multiple of 64. -/
structure Plain (code : Nat) (sendings : List Tls13.Sending) (records : List Bytes) : Prop where
  noUpdate : ∀ b, Tls13.Sending.keyUpdate b ∉ sendings
  small : ∀ w ∈ records, w.length ≤ 4096
  chacha : code = 0x1303 → ∀ w ∈ records, w.length % 64 ≠ 21

namespace ChannelProof

theorem type_code (x : Tls13.Sending) : ∃ t : RecordType, t ≠ .invalid ∧ t.code = x.type ∧ (t = .applicationData ↔ ∃ m, x = .data m) := by
  cases x
  · exact ⟨.applicationData, by decide, rfl, by simp⟩
  · exact ⟨.handshake, by decide, rfl, by simp⟩
  · exact ⟨.handshake, by decide, rfl, by simp⟩
  · exact ⟨.alert, by decide, rfl, by simp⟩

/-- One record. -/
theorem read_record {code : Nat} {u : Tls13.Suite} {s : TlsStream} {secret : Bytes} {seq : Nat} (h : ReadsFrom code u s secret seq) (hsec : secret.length = u.hash.out)
    (hseq : seq < 2 ^ 63) (x : Tls13.Sending) (w : Bytes) (rest : List Bytes) (size : Nat)
    (hw : Tls13.Protected u.protect (Tls13.writeKey u.hash secret u.keyLength) (Tls13.writeIv u.hash secret 12) seq x.type x.content w)
    (hi : s.stream.incoming = w :: rest) (hx : x.content.length ≤ size) (hwl : w.length ≤ 4096) (h64 : code = 0x1303 → w.length % 64 ≠ 21) :
    (s.tlsRead size).1 = expectedRead x ∧ ReadsFrom code u (s.tlsRead size).2 secret (seq + 1) ∧ (s.tlsRead size).2.stream.incoming = rest := by
  obtain ⟨hmem, p, cs, hp, hcs, hc, hk, hiv, hsq⟩ := h
  obtain ⟨cs', t, c, hlib⟩ := lib_suite hmem
  have e1 : cs' = cs := by have := hlib.parsed; rw [hcs] at this; exact (Res.ok.inj this).symm
  subst e1
  have e2 : c = p.cipher := by have := hlib.cipher; rw [hc] at this; exact (Res.ok.inj this).symm
  subst e2
  have hok : KeyOk cs' (rKey p) := by
    have ht := out_le t
    rw [hlib.hash, ← hsec] at ht
    have h2 := keyLen_le cs'
    constructor
    · rw [hk, ← hlib.hash, ← hlib.keyLength]
      exact (expandQ_eq t _ "key" [] _ (by omega) (by simp [String.length]) (by omega)).2
    · rw [hiv, ← hlib.hash]
      exact (expandQ_eq t _ "iv" [] 12 (by omega) (by simp [String.length]) (by omega)).2
  obtain ⟨ty, t1, t2, t3⟩ := type_code x
  have hne : w ≠ [] := by
    obtain ⟨ct, tag, n, _, rfl, _⟩ := hw
    simp [Tls13.protectedHeader]
  have hw' : Tls13.Protected (aead p.cipher) (rKey p).key (rKey p).iv (rKey p).sequenceNumber.toNat ty.code x.content w := by
    obtain ⟨ct, tag, pad, hl, hwe, he⟩ := hw
    refine ⟨ct, tag, pad, hl, hwe, ?_⟩
    rw [← hk, ← hiv, ← hsq] at he
    have hlen : (x.content ++ [x.type] ++ zeros pad).length = x.content.length + 1 + pad := by simp; omega
    rw [t2, protect_eq hlib hok _ _ _ (by rw [hlen]; omega) (by simp [Tls13.protectedHeader, beBytes_length]), he]
    intro hc
    have h64 := h64 hc
    obtain ⟨t1, t2⟩ := tag_eq he
    rw [hlen] at t1 ⊢
    rw [hwe] at h64
    simp only [List.length_append, t1, t2, Tls13.protectedHeader, beBytes_length, List.length_cons, List.length_nil] at h64
    omega
  obtain ⟨r, q, r1, r2, r3, r4, r5⟩ := EarlyProof.opens_key hc hok (by omega) t1 hw'
  have hns := next_seq (k := rKey p) (by omega)
  have hfrom : ∀ s' : TlsStream, s'.protection = some q → ReadsFrom code u s' secret (seq + 1) := fun s' hs' =>
    ⟨hmem, q, cs', hs', hcs, by rw [r5.cipher]; exact hc, by rw [r5.r]; exact hk, by rw [r5.r]; exact hiv, by rw [r5.r, hns, hsq]⟩
  unfold TlsStream.tlsRead TlsStream.tcpRead
  rw [hi]
  simp only [List.take_of_length_le hwl, List.drop_of_length_le hwl, hne, if_true, if_false, r1, r3, ne_eq, not_true_eq_false, hp, r4]
  by_cases hty : ty = .applicationData
  · obtain ⟨m, rfl⟩ := t3.1 hty
    simp only [hty, not_true_eq_false, if_false]
    refine ⟨?_, hfrom _ rfl, by first | rfl | trivial⟩
    unfold TlsStream.deliver
    rw [if_neg (by simpa [Record.new, Tls13.Sending.content] using hx)]
    rfl
  · simp only [hty, not_false_eq_true, if_true]
    refine ⟨?_, hfrom _ rfl, by first | rfl | trivial⟩
    cases x with
    | data m => exact absurd (t3.2 ⟨m, rfl⟩) hty
    | _ => rfl

end ChannelProof

/-- C86, the exact results for the peers in `Plain`. -/
theorem C86_results (code : Nat) (u : Tls13.Suite) (size : Nat) (secret : Bytes) (hsec : secret.length = u.hash.out) (sendings : List Tls13.Sending) :
    ∀ (s : TlsStream) (seq : Nat) (records : List Bytes), ReadsFrom code u s secret seq → Tls13.Sends u secret seq sendings records → s.stream.incoming = records →
    (∀ x ∈ sendings, x.content.length ≤ size) → seq + sendings.length < 2 ^ 63 → Plain code sendings records →
    readResults (List.replicate sendings.length (.read size)) s = sendings.map expectedRead := by
  induction sendings with
  | nil => intro s seq records _ _ _ _ _ _; rfl
  | cons x xs ih =>
    intro s seq records h hs hi hx hq hp
    obtain ⟨w, rest, rfl, hw, hrest⟩ := hs
    have hrest' : Tls13.Sends u secret (seq + 1) xs rest := by
      cases x with
      | keyUpdate b => exact absurd (List.mem_cons_self ..) (hp.noUpdate b)
      | _ => exact hrest
    simp only [List.length_cons] at hq
    obtain ⟨h1, h2, h3⟩ := ChannelProof.read_record h hsec (by omega) x w rest size hw hi (hx _ (by simp)) (hp.small _ (by simp)) fun hc => hp.chacha hc _ (by simp)
    have := ih _ (seq + 1) rest h2 hrest' h3 (fun y hy => hx y (by simp [hy])) (by omega)
      ⟨fun b hb => hp.noUpdate b (by simp [hb]), fun v hv => hp.small v (by simp [hv]), fun hc v hv => hp.chacha hc v (by simp [hv])⟩
    simp only [List.length_cons, List.replicate_succ, readResults, List.map_cons, h1, this]

/-- C86 for the peers in `Plain`. Missing: peers that update their keys (`C86_false`), larger records (C23), and the ChaCha20-Poly1305 records of C61. -/
theorem C86_delivery_partial : C86_for Plain := by
  intro code u s secret seq sendings records size h hsec hs hi hx hq hp
  rw [C86_results code u size secret hsec sendings s seq records h hs hi hx hq hp]
  unfold delivered
  rw [List.filterMap_map]
  congr 1
  funext x
  cases x <;> rfl

namespace ChannelProof

/-- Every peer can send: records without padding exist. -/
theorem sends_exist (u : Tls13.Suite) (xs : List Tls13.Sending) : ∀ (secret : Bytes) (seq : Nat), (∀ x ∈ xs, x.content.length ≤ 2 ^ 14) →
    ∃ records, Tls13.Sends u secret seq xs records ∧ ∀ w ∈ records, ∃ x ∈ xs, w.length = x.content.length + 22 := by
  induction xs with
  | nil => exact fun _ _ _ => ⟨[], rfl, by simp⟩
  | cons x xs ih =>
    intro secret seq hx
    have hx0 := hx x (by simp)
    obtain ⟨ct, tag, e⟩ : ∃ ct tag, u.protect (Tls13.writeKey u.hash secret u.keyLength) (Tls13.nonce (Tls13.writeIv u.hash secret 12) seq)
      (x.content ++ [x.type] ++ zeros 0) (Tls13.protectedHeader (x.content.length + 1 + 0)) = some (ct, tag) := ⟨_, _, rfl⟩
    obtain ⟨l1, l2⟩ := tag_eq e
    have hl : (Tls13.protectedHeader (x.content.length + 1 + 0) ++ ct ++ tag).length = x.content.length + 22 := by
      simp only [List.length_append, l1, l2, Tls13.protectedHeader, beBytes_length, List.length_cons, List.length_nil, zeros, List.length_replicate]
      omega
    have hP : Tls13.Protected u.protect (Tls13.writeKey u.hash secret u.keyLength) (Tls13.writeIv u.hash secret 12) seq x.type x.content _ :=
      ⟨ct, tag, 0, by omega, rfl, e⟩
    have hxs : ∀ y ∈ xs, y.content.length ≤ 2 ^ 14 := fun y hy => hx y (by simp [hy])
    obtain ⟨r1, a1, a2⟩ := ih secret (seq + 1) hxs
    obtain ⟨r2, b1, b2⟩ := ih (u.nextSecret secret) 0 hxs
    by_cases hu : ∃ b, x = .keyUpdate b
    · obtain ⟨b, rfl⟩ := hu
      refine ⟨_, ⟨_, r2, rfl, hP, b1⟩, ?_⟩
      intro w hw
      rcases List.mem_cons.1 hw with rfl | hw
      · exact ⟨_, List.mem_cons_self .., hl⟩
      · obtain ⟨y, hy, e⟩ := b2 w hw; exact ⟨y, by simp [hy], e⟩
    · refine ⟨_, ⟨_, r1, rfl, hP, ?_⟩, ?_⟩
      · cases x with
        | keyUpdate b => exact absurd ⟨b, rfl⟩ hu
        | _ => exact a1
      · intro w hw
        rcases List.mem_cons.1 hw with rfl | hw
        · exact ⟨_, List.mem_cons_self .., hl⟩
        · obtain ⟨y, hy, e⟩ := a2 w hw; exact ⟨y, by simp [hy], e⟩

/-- A stream that reads from the peer with this suite and secret. -/
theorem reads_exist {code : Nat} {u : Tls13.Suite} (h : (code, u) ∈ Tls13.suites) (secret : Bytes) (records : List Bytes) :
    ∃ s, ReadsFrom code u s secret 0 ∧ s.stream.incoming = records := by
  obtain ⟨cs, t, c, hlib⟩ := lib_suite h
  exact ⟨⟨⟨records, [], []⟩, some ⟨⟨⟨.sha256, []⟩, ⟨.sha256, []⟩, ⟨.sha256, []⟩⟩, c,
    ⟨⟨[], Tls13.writeKey u.hash secret u.keyLength, Tls13.writeIv u.hash secret 12, 0⟩, ⟨[], Tls13.writeKey u.hash secret u.keyLength, Tls13.writeIv u.hash secret 12, 0⟩⟩,
    true, none⟩, []⟩, ⟨h, _, cs, rfl, hlib.parsed, hlib.cipher, rfl, rfl, rfl⟩, rfl⟩

end ChannelProof

/-- The hypotheses of C86 are met: with every suite, a server that sends two tickets, data, and its closure alert. -/
example (code : Nat) (u : Tls13.Suite) (hu : (code, u) ∈ Tls13.suites) (secret : Bytes) (hsec : secret.length = u.hash.out) :
    ∃ s records, ReadsFrom code u s secret 0 ∧ Tls13.Sends u secret 0 [.ticket (zeros 40), .ticket (zeros 40), .data (ascii "hello"), .closeNotify] records ∧
      s.stream.incoming = records ∧ Plain code [.ticket (zeros 40), .ticket (zeros 40), .data (ascii "hello"), .closeNotify] records ∧
      readResults (List.replicate 4 (.read 100)) s = [.err .unexpectedMessage, .err .unexpectedMessage, .ok (ascii "hello"), .err .unexpectedMessage] := by
  have hlen : ∀ x ∈ [Tls13.Sending.ticket (zeros 40), .ticket (zeros 40), .data (ascii "hello"), .closeNotify], x.content.length ≤ 100 ∧ x.content.length % 64 ≠ 63 := by
    intro x hx
    simp only [List.mem_cons, List.not_mem_nil, or_false] at hx
    rcases hx with rfl | rfl | rfl | rfl <;> decide
  obtain ⟨records, h1, h2⟩ := ChannelProof.sends_exist u _ secret 0 fun x hx => le_trans (hlen x hx).1 (by decide)
  obtain ⟨s, h3, h4⟩ := ChannelProof.reads_exist hu secret records
  have hp : Plain code [.ticket (zeros 40), .ticket (zeros 40), .data (ascii "hello"), .closeNotify] records := by
    refine ⟨by simp, fun w hw => ?_, fun _ w hw => ?_⟩
    · obtain ⟨x, hx, e⟩ := h2 w hw; have := (hlen x hx).1; omega
    · obtain ⟨x, hx, e⟩ := h2 w hw; have := (hlen x hx).2; omega
  exact ⟨s, records, h3, h1, h4, hp, C86_results code u 100 secret hsec _ s 0 records h3 h1 h4 (fun x hx => (hlen x hx).1) (by simp) hp⟩

namespace ChannelProof

/-- The traffic keys and IVs of the secret of 32 zeros and of its successor, and the record with the application data 7 under the latter. -/
def key1 : Bytes := beBytes 32 4865953842900497173984837201897869026996532542475693215760990275267256702918
def iv1 : Bytes := beBytes 12 19539847769929521331795684708
def secret2 : Bytes := beBytes 32 44868876563217069513592869737637240077615445426229038260312142066444050439044
def key2 : Bytes := beBytes 32 77638405942895558534712110441508337259708904503804614940160600663414930114145
def iv2 : Bytes := beBytes 12 35507492146622214667096390615
def ct2 : Bytes := beBytes 2 17287
def tag2 : Bytes := beBytes 16 80189029761475448936799905383079706544

theorem expand_of {secret out : Bytes} {label : String} {len : Nat} (hs : secret.length ≤ 64) (hl : label.length < 2 ^ 40) (hlen : len ≤ 255 * 32)
    (h : ((Hkdf.mk .sha256 secret).expandQ (getHkdfExpandLabel (ascii label) [] len) len : Res Unit Bytes) = .ok out) :
    Tls13.expandLabel hashSha256 secret label [] len = out := by
  have := (expandQ_eq .sha256 secret label [] len hs (by simp; omega) hlen).1
  rw [h] at this
  exact (Res.ok.inj this).symm

theorem key1_eq : Tls13.writeKey hashSha256 (zeros 32) 32 = key1 := expand_of (by decide) (by decide) (by decide) (by decide +kernel)
theorem iv1_eq : Tls13.writeIv hashSha256 (zeros 32) 12 = iv1 := expand_of (by decide) (by decide) (by decide) (by decide +kernel)
theorem secret2_eq : Tls13.expandLabel hashSha256 (zeros 32) "traffic upd" [] 32 = secret2 := expand_of (by decide) (by decide) (by decide) (by decide +kernel)
theorem key2_eq : Tls13.writeKey hashSha256 secret2 32 = key2 := expand_of (by decide) (by decide) (by decide) (by decide +kernel)
theorem iv2_eq : Tls13.writeIv hashSha256 secret2 12 = iv2 := expand_of (by decide) (by decide) (by decide) (by decide +kernel)

theorem sealed2 : aead .poly1305 key2 (Tls13.nonce iv2 0) [7#8, 23#8] (Tls13.protectedHeader 2) = some (ct2, tag2) := by decide +kernel

theorem refused2 : ∃ e, Cipher.poly1305.decrypt key1 (Tls13.nonce iv1 1) ct2 (Tls13.protectedHeader 2) tag2 = .err e := by
  have : (match Cipher.poly1305.decrypt key1 (Tls13.nonce iv1 1) ct2 (Tls13.protectedHeader 2) tag2 with | .err _ => true | _ => false) = true := by decide +kernel
  revert this
  rcases Cipher.poly1305.decrypt key1 (Tls13.nonce iv1 1) ct2 (Tls13.protectedHeader 2) tag2 with a | e | _
  · simp
  · exact fun _ => ⟨e, rfl⟩
  · simp

theorem lib_chacha : LibSuite 0x1303 ⟨hashSha256, 32, .chacha20Poly1305⟩ .chacha20Poly1305Sha256 .sha256 .poly1305 :=
  ⟨rfl, rfl, rfl, rfl, rfl, rfl, rfl, fun _ => rfl⟩

end ChannelProof

open ChannelProof in
/-- C86 is false: after a KeyUpdate message the application data of the peer is no longer delivered. -/
theorem C86_false : ¬ C86_statement := by
  intro hst
  obtain ⟨u, hu⟩ : ∃ u : Tls13.Suite, u = ⟨hashSha256, 32, .chacha20Poly1305⟩ := ⟨_, rfl⟩
  have hmem : (0x1303, u) ∈ Tls13.suites := by rw [hu]; simp [Tls13.suites]
  have hh : u.hash = hashSha256 := by rw [hu]
  have hkl : u.keyLength = 32 := by rw [hu]
  have hlib := lib_chacha
  rw [← hu] at hlib
  -- the record with the KeyUpdate
  obtain ⟨c1, hc1⟩ : ∃ c1, c1 = (Tls13.Sending.keyUpdate false).content := ⟨_, rfl⟩
  have hc1l : c1.length = 5 := by rw [hc1]; rfl
  obtain ⟨ct1, tag1, e1⟩ : ∃ ct1 tag1, u.protect key1 (Tls13.nonce iv1 0) (c1 ++ [22#8] ++ zeros 0) (Tls13.protectedHeader (c1.length + 1 + 0)) = some (ct1, tag1) :=
    ⟨_, _, rfl⟩
  obtain ⟨l1, l2⟩ := tag_eq e1
  obtain ⟨w1, hw1⟩ : ∃ w1, w1 = Tls13.protectedHeader (c1.length + 1 + 0) ++ ct1 ++ tag1 := ⟨_, rfl⟩
  have hw1l : w1.length = 27 := by
    rw [hw1]
    simp only [List.length_append, l1, l2, hc1l, Tls13.protectedHeader, beBytes_length, List.length_cons, List.length_nil, zeros, List.length_replicate]
  have hP1 : Tls13.Protected u.protect (Tls13.writeKey u.hash (zeros 32) u.keyLength) (Tls13.writeIv u.hash (zeros 32) 12) 0
      (Tls13.Sending.keyUpdate false).type (Tls13.Sending.keyUpdate false).content w1 := by
    rw [hh, hkl, key1_eq, iv1_eq, ← hc1]
    exact ⟨ct1, tag1, 0, by rw [hc1l]; decide, hw1, e1⟩
  -- the record with the data
  have hk2 : KeyOk .chacha20Poly1305Sha256 ⟨[], key2, iv2, 0#64⟩ := ⟨by simp [key2, beBytes_length, CipherSuite.getKeyAndIvLen], by simp [iv2, beBytes_length]⟩
  have e2 : u.protect key2 (Tls13.nonce iv2 0) [7#8, 23#8] (Tls13.protectedHeader 2) = some (ct2, tag2) := by
    rw [← sealed2]
    exact (protect_eq hlib hk2 0 [7#8, 23#8] (Tls13.protectedHeader 2) (by decide) (by decide) (by intro; decide)).symm
  obtain ⟨w2, hw2⟩ : ∃ w2, w2 = Tls13.protectedHeader 2 ++ ct2 ++ tag2 := ⟨_, rfl⟩
  have hP2 : Tls13.Protected u.protect (Tls13.writeKey u.hash (u.nextSecret (zeros 32)) u.keyLength) (Tls13.writeIv u.hash (u.nextSecret (zeros 32)) 12) 0 23#8 [7#8] w2 := by
    have hn : u.nextSecret (zeros 32) = secret2 := by
      unfold Tls13.Suite.nextSecret
      rw [hh]
      exact secret2_eq
    rw [hn, hh, hkl, key2_eq, iv2_eq]
    exact ⟨ct2, tag2, 0, by decide, hw2, e2⟩
  -- the stream
  obtain ⟨s, hs⟩ : ∃ s : TlsStream, s = ⟨⟨[w1, w2], [], []⟩, some ⟨⟨⟨.sha256, []⟩, ⟨.sha256, []⟩, ⟨.sha256, []⟩⟩, .poly1305,
    ⟨⟨[], key1, iv1, 0⟩, ⟨[], key1, iv1, 0⟩⟩, true, none⟩, []⟩ := ⟨_, rfl⟩
  have hfrom : ReadsFrom 0x1303 u s (zeros 32) 0 := by
    refine ⟨hmem, _, .chacha20Poly1305Sha256, by rw [hs], rfl, rfl, ?_, ?_, rfl⟩
    · rw [hh, hkl, key1_eq]; rfl
    · rw [hh, iv1_eq]; rfl
  have hsec : (zeros 32).length = u.hash.out := by rw [hh]; rfl
  have hin : s.stream.incoming = [w1, w2] := by rw [hs]
  have hall := hst 0x1303 u s (zeros 32) 0 [.keyUpdate false, .data [7#8]] [w1, w2] 10 hfrom hsec
    ⟨w1, [w2], rfl, hP1, w2, [], rfl, hP2, rfl⟩ hin (by simp [Tls13.Sending.content, Tls13.handshakeMessage, beBytes]) (by simp) trivial
  obtain ⟨r1, ⟨_, p, cs, q1, q2, q3, q4, q5, q6⟩, r3⟩ := read_record hfrom hsec (by decide) (.keyUpdate false) w1 [w2] 10 hP1 hin
    (by rw [← hc1, hc1l]; decide) (by omega) (by omega)
  have hcs : cs = .chacha20Poly1305Sha256 := (Res.ok.inj (q2.symm.trans hlib.parsed))
  subst hcs
  have hcp : p.cipher = .poly1305 := (Res.ok.inj (q3.symm.trans hlib.cipher))
  rw [hh, hkl, key1_eq] at q4
  rw [hh, iv1_eq] at q5
  have hread : ∃ e, ((s.tlsRead 10).2.tlsRead 10).1 = .err e := by
    have hraw : Record.fromRaw w2 = .ok (w2.length, ⟨.applicationData, 0x0303, 18, Tls13.protectedHeader 2, ct2 ++ tag2⟩) := by
      rw [hw2]; decide +kernel
    obtain ⟨q, hq, _⟩ := readNonce_eq p (by rw [q5]; simp [iv1, beBytes_length]) (by intro hne; rw [hne] at q6; exact absurd q6 (by decide))
    rw [q4, q5, q6] at hq
    obtain ⟨e, he⟩ := refused2
    have hdec : p.decrypt ⟨.applicationData, 0x0303, 18, Tls13.protectedHeader 2, ct2 ++ tag2⟩ = (.err .decryptError, q) := by
      unfold RecordPayloadProtection.decrypt
      rw [if_neg (by decide)]
      simp only [hq, hcp]
      have t1 : (ct2 ++ tag2).take ((ct2 ++ tag2).length - 16) = ct2 := by decide
      have t2 : (ct2 ++ tag2).drop ct2.length = tag2 := by decide
      rw [t1, t2, he]
    refine ⟨.decryptError, ?_⟩
    have hne : w2 ≠ [] := by rw [hw2]; simp [Tls13.protectedHeader]
    have hwl : w2.length ≤ 4096 := by rw [hw2]; decide
    generalize (s.tlsRead 10).2 = s1 at q1 r3 ⊢
    unfold TlsStream.tlsRead TlsStream.tcpRead
    rw [r3]
    simp only [List.take_of_length_le hwl, List.drop_of_length_le hwl, hne, if_true, if_false, hraw, q1, hdec]
    rfl
  obtain ⟨e, he⟩ := hread
  have : delivered (readResults (List.replicate 2 (.read 10)) s) = [] := by
    simp only [List.replicate, readResults, r1, he]
    rfl
  rw [show [Tls13.Sending.keyUpdate false, .data [7#8]].length = 2 from rfl, this] at hall
  simp [Tls13.Sending.dataOf] at hall

end ATLS
