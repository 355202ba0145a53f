import Verif.Spec.Peer
import Verif.Props.ClientComplete
import Verif.Props.Negotiation
import Verif.Props.X509
import Verif.Props.Time
/-
Supporting lemmas for C81 and C82: the parties of `Spec.Tls13` in the vocabulary of the state machine theorems.
-/
namespace ATLS

/-- The certificates whose dates the library converts well enough at the time `now`: the years are from 1970 on, and if the last day is one after
February of a leap year then it is more than a day ahead. -/
def GoodDates (c : Spec.Tls13.Cert) (now : Nat) : Prop :=
  1970 ≤ c.tbs.notBefore.year ∧ 1970 ≤ c.tbs.notAfter.year ∧
    (c.tbs.notAfter.month ≤ 2 ∨ Spec.Time.isLeap c.tbs.notAfter.year = false ∨
      now + 86400 ≤ Spec.Time.unix c.tbs.notAfter.year c.tbs.notAfter.month c.tbs.notAfter.day c.tbs.notAfter.hour c.tbs.notAfter.minute c.tbs.notAfter.second)

namespace RfcProof
open ATLS.Model ATLS.Spec FlowProof RecProof KsProof

/-! ### Suites -/

/-- The library's parameters of an RFC suite. -/
structure LibSuite (code : Nat) (u : Tls13.Suite) (cs : CipherSuite) (t : HashType) (c : Cipher) : Prop where
  parsed : CipherSuite.new code = .ok cs
  asU16 : cs.asU16 = code
  tshash : cs.getTshash = .ok t
  cipher : cs.getCipher = .ok c
  hash : rfcHash t = u.hash
  keyLength : cs.getKeyAndIvLen.1 = u.keyLength
  aead : rfcAead cs = some u.aead
  chacha : cs = .chacha20Poly1305Sha256 → code = 0x1303

theorem lib_suite {code : Nat} {u : Tls13.Suite} (h : (code, u) ∈ Tls13.suites) : ∃ cs t c, LibSuite code u cs t c := by
  simp only [Tls13.suites, List.mem_cons, List.not_mem_nil, or_false, Prod.mk.injEq] at h
  rcases h with ⟨rfl, rfl⟩ | ⟨rfl, rfl⟩ | ⟨rfl, rfl⟩
  · exact ⟨.aes128GcmSha256, .sha256, _, rfl, rfl, rfl, rfl, rfl, rfl, rfl, by simp⟩
  · exact ⟨.aes256GcmSha384, .sha384, _, rfl, rfl, rfl, rfl, rfl, rfl, rfl, by simp⟩
  · exact ⟨.chacha20Poly1305Sha256, .sha256, _, rfl, rfl, rfl, rfl, rfl, rfl, rfl, by simp⟩

/-- The suites the library can choose are RFC suites. -/
theorem suite_lib {cs : CipherSuite} (h : cs ∈ [CipherSuite.aes128GcmSha256, .aes256GcmSha384, .chacha20Poly1305Sha256]) :
    ∃ u t c, (cs.asU16, u) ∈ Tls13.suites ∧ LibSuite cs.asU16 u cs t c := by
  simp only [List.mem_cons, List.not_mem_nil, or_false] at h
  rcases h with rfl | rfl | rfl
  · exact ⟨⟨hashSha256, 16, .aesGcm⟩, .sha256, _, by simp [Tls13.suites, CipherSuite.asU16], rfl, rfl, rfl, rfl, rfl, rfl, rfl, by simp⟩
  · exact ⟨⟨hashSha384, 32, .aesGcm⟩, .sha384, _, by simp [Tls13.suites, CipherSuite.asU16], rfl, rfl, rfl, rfl, rfl, rfl, rfl, by simp⟩
  · exact ⟨⟨hashSha256, 32, .chacha20Poly1305⟩, .sha256, _, by simp [Tls13.suites, CipherSuite.asU16], rfl, rfl, rfl, rfl, rfl, rfl, rfl, fun _ => rfl⟩

/-- The library's AEAD is the RFC's, except on ChaCha20-Poly1305 plaintexts whose length is a multiple of 64. -/
theorem protect_eq {code : Nat} {u : Tls13.Suite} {cs : CipherSuite} {t : HashType} {c : Cipher} (hs : LibSuite code u cs t c) {k : Key} (hk : KeyOk cs k)
    (seq : Nat) (pt aad : Bytes) (hp : pt.length ≤ 2 ^ 20) (ha : aad.length ≤ 5) (hx : code = 0x1303 → pt.length % 64 ≠ 0) :
    aead c k.key (Tls13.nonce k.iv seq) pt aad = u.protect k.key (Tls13.nonce k.iv seq) pt aad := by
  have hnl := nonce_length k.iv seq hk.2
  have ha' := hs.aead
  have hci := hs.cipher
  have hsz := hk.1
  have hx' : cs = .chacha20Poly1305Sha256 → pt.length % 64 ≠ 0 := fun h => hx (hs.chacha h)
  have ha2 : aad.length < 2 ^ 61 := by omega
  have hp2 : pt.length < 2 ^ 61 := by omega
  unfold aead Tls13.Suite.protect
  cases cs <;> simp only [rfcAead, Option.some.injEq, reduceCtorEq] at ha' <;> rw [← ha'] <;>
    simp only [CipherSuite.getCipher, Res.ok.injEq, CipherSuite.getKeyAndIvLen] at hci hsz <;> subst hci
  · have e : (Cipher.gcm .aes256GcmSha384).encrypt k.key (Tls13.nonce k.iv seq) pt aad = _ :=
      C12_gcm_sp800_38d _ _ pt aad (Or.inr (Or.inr hsz)) hnl ha2 hp2
    rw [e]; rfl
  · obtain ⟨ct, hc1, hcl, hc2⟩ := CipherProof.poly_encrypt_ok k.key (Tls13.nonce k.iv seq) pt aad hsz hnl (by omega)
    rw [C13_chacha20_partial _ _ _ 1 hsz hnl (by omega) (Or.inl (hx' rfl))] at hc1
    have e : Cipher.poly1305.encrypt k.key (Tls13.nonce k.iv seq) pt aad = _ := hc2
    rw [e]
    simp only [Tls13.Aead.encrypt, ChaCha.aeadEncrypt, Res.ok.inj hc1]
  · have e : (Cipher.gcm .aes128GcmSha256).encrypt k.key (Tls13.nonce k.iv seq) pt aad = _ :=
      C12_gcm_sp800_38d _ _ pt aad (Or.inl hsz) hnl ha2 hp2
    rw [e]; rfl

theorem tag_eq {u : Tls13.Suite} {key nonce pt aad ct tag : Bytes} (h : u.protect key nonce pt aad = some (ct, tag)) : ct.length = pt.length ∧ tag.length = 16 := by
  have h := Option.some.inj h
  cases ha : u.aead with
  | aesGcm =>
    rw [ha] at h
    have := CipherProof.gcm_lengths key nonce pt aad
    simp only [Tls13.Aead.encrypt] at h
    rw [h] at this
    exact this
  | chacha20Poly1305 =>
    rw [ha] at h
    simp only [Tls13.Aead.encrypt, ChaCha.aeadEncrypt] at h
    obtain ⟨h1, h2⟩ := Prod.mk.inj h
    rw [← h1, ← h2]
    exact ⟨by simp [Spec.ChaCha.encrypt], CipherProof.tag_length _ _ _ _⟩

/-- A flight protected with the RFC's AEAD is one protected with the library's. -/
theorem flight_lib {code : Nat} {u : Tls13.Suite} {cs : CipherSuite} {t : HashType} {c : Cipher} (hs : LibSuite code u cs t c) {k : Key} (hk : KeyOk cs k)
    {seq : Nat} {contents records : List Bytes} (h : Tls13.ProtectedFlight u.protect k.key k.iv seq contents records)
    (hx : code = 0x1303 → ∀ w ∈ records, w.length % 64 ≠ 21) : Tls13.ProtectedFlight (aead c) k.key k.iv seq contents records := by
  induction h with
  | nil seq => exact .nil seq
  | ccs seq cts content wire recs h1 _ ih => exact .ccs _ _ content _ _ h1 (ih fun hc w hw => hx hc w (by simp [hw]))
  | cons seq content cts wire recs h1 _ ih =>
    refine .cons _ _ _ _ _ ?_ (ih fun hc w hw => hx hc w (by simp [hw]))
    obtain ⟨ct, tag, pad, hl, hw, he⟩ := h1
    refine ⟨ct, tag, pad, hl, hw, ?_⟩
    have hlen : (content ++ [22#8] ++ zeros pad).length = content.length + 1 + pad := by simp; omega
    rw [protect_eq hs hk seq _ _ (by rw [hlen]; omega) (by simp [Tls13.protectedHeader, beBytes_length]), he]
    intro hc
    have h64 := hx hc wire (by simp)
    obtain ⟨t1, t2⟩ := tag_eq he
    rw [hlen] at t1 ⊢
    rw [hw] at h64
    simp only [List.length_append, t1, t2, Tls13.protectedHeader, beBytes_length, List.length_cons, List.length_nil] at h64
    omega

/-- What the library sends is protected with the RFC's AEAD, unless the length of a message is one short of a multiple of 64 (ChaCha20-Poly1305). -/
theorem sent_rfc {code : Nat} {u : Tls13.Suite} {cs : CipherSuite} {t : HashType} {c : Cipher} (hs : LibSuite code u cs t c) {k : Key} (hk : KeyOk cs k) :
    ∀ {seq : Nat} {ms : List Bytes} {w : Bytes}, Tls13.Sent (aead c) k.key k.iv seq ms w → (∀ m ∈ ms, m.length < 2 ^ 20) →
    (code = 0x1303 → ∀ m ∈ ms, m.length % 64 ≠ 63) → Tls13.Sent u.protect k.key k.iv seq ms w
  | _, [], _, h, _, _ => h
  | seq, m :: ms, w, ⟨ct, tag, rest, h1, h2, h3⟩, hl, hx => by
    refine ⟨ct, tag, rest, ?_, h2, sent_rfc hs hk h3 (fun a ha => hl a (by simp [ha])) fun hc a ha => hx hc a (by simp [ha])⟩
    rw [← protect_eq hs hk seq _ _ (by have := hl m (by simp); simp; omega) (by simp [Tls13.protectedHeader, beBytes_length]), h1]
    intro hc
    have := hx hc m (by simp)
    simp
    omega

/-! ### The key exchange -/

theorem share_eq {k : Bytes} (hk : k.length = 32) : Tls13.x25519Public k = X25519.encodeU (Curve25519.u (X25519.decodeScalar k • Curve25519.G)) := by
  unfold Tls13.x25519Public
  have : (9#8 :: zeros 31 : Bytes) = 9 :: zeros 31 := rfl
  rw [this, ← u_G, LadderProof.x25519_u hk]

theorem publicShare_eq (n : Int) : publicShare n = Tls13.x25519Public (scalarBytes n) := (share_eq (scalarBytes_length n)).symm

theorem dh {a b : Bytes} (ha : a.length = 32) (hb : b.length = 32) : X25519.x25519 a (Tls13.x25519Public b) = X25519.x25519 b (Tls13.x25519Public a) := by
  rw [share_eq ha, share_eq hb, LadderProof.x25519_u ha, LadderProof.x25519_u hb, smul_smul, smul_smul, mul_comm]

theorem public_length {k : Bytes} (hk : k.length = 32) : (Tls13.x25519Public k).length = 32 := by rw [share_eq hk]; exact leBytes_length 32 _

/-- The secret the library computes with a peer's public value, if neither the value nor the secret starts with a zero byte. -/
theorem secret_rfc {n : Int} (h0 : 0 ≤ n) (h1 : n < 2 ^ 256) {k : Bytes} (hk : k.length = 32) (hz : (Tls13.x25519Public k).getD 0 0 ≠ 0)
    (hs : (X25519.x25519 k (publicShare n)).getD 0 0 ≠ 0) : sharedSecret ⟨.curve25519, n⟩ (Tls13.x25519Public k) = .ok (X25519.x25519 k (publicShare n)) := by
  rw [shared_eq h0 h1 (big_of_bytes (public_length hk) hz) (public_length hk)]
  have : X25519.x25519 (scalarBytes n) (Tls13.x25519Public k) = X25519.x25519 k (publicShare n) := by
    rw [publicShare_eq, dh (scalarBytes_length n) hk]
  rw [this]
  exact big_of_bytes (leBytes_length 32 _) hs

/-! ### Certificates -/

theorem sub_ok {a b v : Nat} (h : UtcTime.sub (ε := Unit) a b = .ok v) : UtcTime.sub (ε := TlsError) a b = .ok v := by
  unfold UtcTime.sub at h ⊢
  split_ifs at h ⊢
  rw [Res.ok.inj h]

theorem unix_ok {t : UtcTime} {v : Nat} (h : t.getUnixTimestamp (ε := Unit) = .ok v) : t.getUnixTimestamp (ε := TlsError) = .ok v := by
  unfold UtcTime.getUnixTimestamp at h ⊢
  obtain ⟨a1, e1, h⟩ := Res.bind_eq_ok.1 h
  obtain ⟨a2, e2, h⟩ := Res.bind_eq_ok.1 h
  obtain ⟨a3, e3, h⟩ := Res.bind_eq_ok.1 h
  obtain ⟨a4, e4, h⟩ := Res.bind_eq_ok.1 h
  obtain ⟨a5, e5, h⟩ := Res.bind_eq_ok.1 h
  obtain ⟨a6, e6, h⟩ := Res.bind_eq_ok.1 h
  obtain ⟨a7, e7, h⟩ := Res.bind_eq_ok.1 h
  obtain ⟨a8, e8, h⟩ := Res.bind_eq_ok.1 h
  obtain ⟨a9, e9, h⟩ := Res.bind_eq_ok.1 h
  have e8' : (idx [0, 31, 59, 90, 120, 151, 181, 212, 243, 273, 304, 334] a7 : Res TlsError Nat) = .ok a8 := by
    unfold idx at e8 ⊢
    split at e8
    · exact congrArg _ (Res.ok.inj e8)
    · cases e8
  simp only [sub_ok e1, sub_ok e2, sub_ok e3, sub_ok e4, sub_ok e5, sub_ok e6, sub_ok e7, sub_ok e9, e8', Res.ok_bind]
  rw [Res.ok.inj h]

theorem date_ok {t : UtcTime} (hv : Time.Valid t.year t.month t.day t.hour t.minute t.second) :
    ∃ v, t.getUnixTimestamp (ε := TlsError) = .ok v ∧
      Time.unix t.year t.month t.day t.hour t.minute t.second = v + (if 3 ≤ t.month ∧ Time.isLeap t.year = true then 86400 else 0) := by
  obtain ⟨v, h1, h2⟩ := TimeProof.unix_eq t hv
  exact ⟨v, unix_ok h1, h2⟩

theorem valid_of {a b : UtcTime} {now va vb : Nat} (h1 : a.getUnixTimestamp (ε := TlsError) = .ok va) (h2 : b.getUnixTimestamp (ε := TlsError) = .ok vb)
    (h3 : va ≤ now) (h4 : now ≤ vb) : Validity.isValid (ε := TlsError) ⟨some a, some b⟩ now = .ok true := by
  unfold Validity.isValid
  simp only [h1, h2, Res.ok_bind]
  rw [if_neg (by simpa using h3), if_neg (by simpa using h4)]

/-- A certificate as the library reads it. -/
theorem leaf_read {c : Tls13.Cert} (h : c.tbs.WellFormed) {Q : Nat × Nat} (hQ : c.Certifies Q) (hl : c.der.length < 2 ^ 16) {now : Nat}
    (hp : c.InPeriod now) (hg : GoodDates c now) :
    ∃ x, Model.X509.fromRaw c.der = .ok x ∧ x.getPublicKey = .ok ⟨⟨Q.1, Q.2⟩, Curve.secp256r1⟩ ∧ x.validity.isValid now = .ok true (ε := TlsError) := by
  obtain ⟨hx, hy, hk⟩ := hQ
  obtain ⟨b1, b2, b3, b4, b5⟩ := X509Proof.certificate_bounds c.tbs c.r c.s hl
  have hf := X509Proof.fromRaw_certificate c.tbs (X509Proof.tbsOk h (by omega)) c.r c.s b3 b4 []
  rw [List.append_nil] at hf
  refine ⟨_, hf, X509Proof.getPublicKey_point _ Q.1 Q.2 hx hy (by simp only [X509Proof.curve_name h]) hk, ?_⟩
  obtain ⟨g1, g2, g3⟩ := hg
  obtain ⟨va, ea, ua⟩ := date_ok (t := X509Proof.utcOf c.tbs.notBefore) ⟨g1, h.notBefore.1⟩
  obtain ⟨vb, eb, ub⟩ := date_ok (t := X509Proof.utcOf c.tbs.notAfter) ⟨g2, h.notAfter.1⟩
  obtain ⟨p1, p2⟩ := hp
  refine valid_of ea eb ?_ ?_
  · refine le_trans ?_ p1
    refine le_trans (Nat.le_add_right _ _) (le_of_eq ua.symm)
  · by_cases hb : 3 ≤ (X509Proof.utcOf c.tbs.notAfter).month ∧ Time.isLeap (X509Proof.utcOf c.tbs.notAfter).year = true
    · rw [if_pos hb] at ub
      rcases g3 with g3 | g3 | g3
      · exact absurd hb.1 (by show ¬ 3 ≤ c.tbs.notAfter.month; omega)
      · have := hb.2
        have e : Time.isLeap c.tbs.notAfter.year = true := this
        rw [g3] at e
        cases e
      · have : Time.unix c.tbs.notAfter.year c.tbs.notAfter.month c.tbs.notAfter.day c.tbs.notAfter.hour c.tbs.notAfter.minute c.tbs.notAfter.second = vb + 86400 := ub
        omega
    · rw [if_neg hb] at ub
      exact le_trans p2 (le_of_eq ub)

/-- The length of the encoding of a number below 2^256. -/
theorem intLen_le {n : Nat} (h : n < 2 ^ 256) : Der.intLen n ≤ 33 := by
  unfold Der.intLen
  have : n.log2 < 256 := by
    by_cases h0 : n = 0
    · subst h0; decide
    · exact (Nat.log2_lt h0).2 h
  omega

theorem n_lt : P256.n < 2 ^ 256 := by decide

/-- A valid signature of the certified key is accepted. -/
theorem verified_rfc {raw : Bytes} {x : Model.X509} {Q : Nat × Nat} (hk : x.getPublicKey = .ok ⟨⟨Q.1, Q.2⟩, Curve.secp256r1⟩) (role : Tls13.Role)
    {t : HashType} {m : Bytes} (hm : m.length < 2 ^ 53) {r s : Nat}
    (h : Ecdsa.Accepts ((Q.1 : Int), (Q.2 : Int)) r s (Ecdsa.hashInt (Sha2.sha256 (Tls13.verifyContent role ((rfcHash t).H m))))) :
    Verified ⟨raw, some x⟩ role (ts t m) (Tls13.certificateVerifyMessage 0x0403 (Der.ecdsaSig r s)) := by
  obtain ⟨P, _, _, r1, r2, s1, s2, _⟩ := id h
  have hn := n_lt
  have hr : Der.intLen r ≤ 33 := intLen_le (by omega)
  have hs : Der.intLen s ≤ 33 := intLen_le (by omega)
  have hdec := C67_decode r s (by omega) (by omega) []
  rw [List.append_nil] at hdec
  have hc := CertProof.content_eq (ts t m) role
  have hl := CertProof.finalize_le (ts t m)
  rw [ts_finalize t m hm] at hc hl
  have hsha := C06_sha256_fips (Tls13.verifyContent role ((rfcHash t).H m)) (by
    simp only [Tls13.verifyContent, List.length_append, List.length_replicate, CertProof.context_length, List.length_singleton]
    omega)
  obtain ⟨ans, hv, hiff⟩ := C30_fips Q.1 Q.2 s r (by omega) (by omega) (Model.sha256 (Certificate.verifyContent (ts t m) (roleLabel role))) (by
    rw [hc]; exact le_of_eq hsha.2)
  rw [hc, hsha.1] at hiff hv
  refine ⟨⟨s, r⟩, (Der.ecdsaSig r s).length, rfl, ?_, ?_, ?_⟩
  · unfold Tls13.certificateVerifyMessage
    rw [List.drop_left' (by simp [beBytes_length])]
    exact hdec
  · unfold Tls13.certificateVerifyMessage
    rw [List.append_assoc]
    exact WireProof.slice_mid (beBytes 2 0x0403) (beBytes 2 (Der.ecdsaSig r s).length) (Der.ecdsaSig r s) (by rw [beBytes_length]) (by rw [beBytes_length])
  · unfold Certificate.isCertificateValid
    simp only [Res.unwrap, Res.ok_bind, hk, hc, hsha.1, hv, hiff.2 h]
    rfl

/-! ### The ServerHello -/

/-- What the client makes of one extension, if key shares are X25519 ones. -/
def sseen : Tls13.ServerExt → List ServerExtension
  | .supportedVersions v => [.supportedVersions (decide (v = 0x0304))]
  | .keyShare s => [.keyShare ⟨[⟨.x25519, s.2⟩]⟩]
  | .other _ _ => []

theorem sexts_seen {pk : Bytes} (hp : 4 ≤ pk.length) : ∀ (es : List Tls13.ServerExt) (acc : List ServerExtension), (∀ s, .keyShare s ∈ es → s = (29, pk)) →
    HelloProof.sextsResult es acc = .ok (acc ++ (es.map sseen).flatten)
  | [], acc, _ => by simp [HelloProof.sextsResult]
  | e :: es, acc, h => by
    have h1 : HelloProof.sextResult e = .ok (sseen e) := by
      cases e with
      | supportedVersions v => rfl
      | keyShare s =>
        rw [h s (by simp)]
        have : NamedGroup.new 29 = some .x25519 := rfl
        simp only [HelloProof.sextResult, this, sseen]
        rw [if_neg (by omega)]
      | other t b => rfl
    rw [HelloProof.sextsResult, h1, Res.ok_bind, sexts_seen hp es _ fun s hs => h s (by simp [hs])]
    simp

theorem share_seen : ∀ es : List Tls13.ServerExt, (ServerHello.mk r i cs (es.map sseen).flatten).getPublicKeyShare =
    (ServerHello.mk r i cs ((es.filter fun e => e.typ == 51).map sseen).flatten).getPublicKeyShare
  | [] => rfl
  | e :: es => by
    have ih := share_seen (r := r) (i := i) (cs := cs) es
    unfold ServerHello.getPublicKeyShare at ih ⊢
    cases e with
    | supportedVersions v => exact ih
    | keyShare s => rfl
    | other t b =>
      by_cases ht : t = 51
      · subst ht; exact ih
      · have : (Tls13.ServerExt.typ (.other t b) == 51) = false := by simpa [Tls13.ServerExt.typ] using ht
        rw [List.filter_cons_of_neg (by rw [this]; simp)]
        exact ih

theorem version_seen : ∀ es : List Tls13.ServerExt, ServerHello.tls13Supported (es.map sseen).flatten =
    ServerHello.tls13Supported ((es.filter fun e => e.typ == 43).map sseen).flatten
  | [] => rfl
  | e :: es => by
    have ih := version_seen es
    unfold ServerHello.tls13Supported at ih ⊢
    cases e with
    | supportedVersions v => rfl
    | keyShare s => exact ih
    | other t b =>
      by_cases ht : t = 43
      · subst ht; exact ih
      · have : (Tls13.ServerExt.typ (.other t b) == 43) = false := by simpa [Tls13.ServerExt.typ] using ht
        rw [List.filter_cons_of_neg (by rw [this]; simp)]
        exact ih

/-- The client reads the ServerHello of every server that follows the RFC. -/
theorem server_hello_read {v : Tls13.Server} {ch sid share : Bytes} {now : Nat} (h : v.Follows ch sid share now) (hs : sid.length = 32)
    {cs : CipherSuite} {t : HashType} {c : Cipher} (hl : LibSuite v.code v.suite cs t c) :
    ∃ hello, ServerHello.fromRaw (v.helloMsg sid).bytes = .ok hello ∧ hello.getPublicKeyShare = some ⟨.x25519, Tls13.x25519Public v.key⟩ ∧
      hello.cipherSuite = cs := by
  have hk : ∀ s, Tls13.ServerExt.keyShare s ∈ v.helloExtensions → s = (29, Tls13.x25519Public v.key) := by
    intro s hm
    have : Tls13.ServerExt.keyShare s ∈ v.helloExtensions.filter (fun e => e.typ == 51) := List.mem_filter.2 ⟨hm, rfl⟩
    rw [h.keyShare] at this
    simpa using this
  refine ⟨⟨v.random, some sid, cs, (v.helloExtensions.map sseen).flatten⟩, ?_, ?_, rfl⟩
  · rw [HelloProof.server_fromRaw _ h.hello (Or.inr hs)]
    show (CipherSuite.new v.code >>= fun cs => HelloProof.sextsResult v.helloExtensions [] >>= _) = _
    rw [hl.parsed, Res.ok_bind, sexts_seen (by rw [public_length h.key]; omega) _ [] hk, Res.ok_bind, List.nil_append, version_seen, h.versions]
    rw [if_pos (by rfl)]
    have : sid ≠ [] := by intro e; rw [e] at hs; cases hs
    have e : ∀ inst : Decidable (sid = []), @ite (Option Bytes) (sid = []) inst none (some sid) = some sid := fun _ => if_neg this
    exact congrArg (fun i => Res.ok (ServerHello.mk v.random i cs (v.helloExtensions.map sseen).flatten)) (e _)
  · rw [share_seen, h.keyShare]
    rfl

/-! ### The server's flight -/

theorem session_eq {v : Tls13.Server} {ch sid share : Bytes} {cs : CipherSuite} {t : HashType} {c : Cipher} (hl : LibSuite v.code v.suite cs t c) :
    (Params.mk t cs c (X25519.x25519 v.key share) (ch ++ v.hello sid)).sess = v.session ch sid share := by
  unfold Params.sess Tls13.Server.session
  rw [hl.hash, hl.keyLength]

/-- The number of groups of messages is at most that of the messages. -/
theorem groups_le {α : Type} : ∀ {groups : List (List α)}, (∀ g ∈ groups, g ≠ []) → groups.length ≤ groups.flatten.length
  | [], _ => by simp
  | g :: gs, h => by
    have h1 := groups_le (groups := gs) fun x hx => h x (by simp [hx])
    have h2 : 0 < g.length := List.length_pos_iff.2 (h g (by simp))
    simp only [List.length_cons, List.flatten_cons, List.length_append]
    omega

theorem flatten_le {n : Nat} : ∀ {l : List Bytes}, (∀ c ∈ l, c.length < n) → l.flatten.length ≤ l.length * n
  | [], _ => by simp
  | c :: l, h => by
    have h1 := flatten_le (l := l) fun x hx => h x (by simp [hx])
    have h2 := h c (by simp)
    simp only [List.flatten_cons, List.length_append, List.length_cons, Nat.add_mul]
    omega

theorem coalesced_le {ms contents : List Bytes} (h : Tls13.Coalesced ms contents) (hl : ∀ c ∈ contents, c.length < 2 ^ 16) :
    ms.flatten.length ≤ ms.length * 2 ^ 16 := by
  obtain ⟨groups, h1, h2, h3⟩ := h
  have e : contents.flatten = ms.flatten := by
    rw [h2, ← h1]
    clear h1 h2 h3
    induction groups with
    | nil => rfl
    | cons g gs ih => simp [ih]
  have h4 := flatten_le hl
  have h5 := groups_le h3
  rw [e] at h4
  rw [h1] at h5
  have h6 : contents.length = groups.length := by rw [h2, List.length_map]
  rw [h6] at h4
  exact le_trans h4 (Nat.mul_le_mul_right _ h5)

end RfcProof

end ATLS
