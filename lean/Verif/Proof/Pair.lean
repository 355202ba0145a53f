import Verif.Props.PairDefs
import Verif.Props.Negotiation
/-
Supporting lemmas for C60: the hellos, certificates and signatures of a client and a server with matching configuration.
-/
namespace ATLS.PairProof
open ATLS.Model ATLS.Spec FlowProof

theorem between_urandom {reads : List Bytes} {a b : Nat} {v : Int} {rng : Rng} (h : ((Rng.urandom reads).between a b : Res TlsError (Int × Rng)) = .ok (v, rng)) :
    ∃ reads', rng = .urandom reads' := by
  unfold Rng.between at h
  obtain ⟨⟨v', reads'⟩, _, h⟩ := Res.bind_eq_ok.1 h
  simp only [] at h
  split_ifs at h
  exact ⟨reads', ((Prod.mk.inj (Res.ok.inj h)).2).symm⟩

theorem bytes_urandom {reads : List Bytes} {b : Bytes} {rng : Rng} (h : ((Rng.urandom reads).bytes 32 : Res TlsError (Bytes × Rng)) = .ok (b, rng)) :
    b.length = 32 ∧ ∃ reads', rng = .urandom reads' := ServerProof.rng_bytes_length ⟨reads, rfl⟩ h

/-- The sizes and ranges of the random values. -/
structure Sizes (q : Draws) (se : ServerEnv) : Prop where
  clientRandom : q.clientRandom.length = 32
  sessionId : q.sessionId.length = 32
  serverRandom : q.serverRandom.length = 32
  context : se.config.clientCertCa.isSome → q.context.length = 32
  clientKey : 0 ≤ q.clientKey ∧ q.clientKey < 2 ^ 256
  serverKey : 0 ≤ q.serverKey ∧ q.serverKey < 2 ^ 256

theorem sizes {q : Draws} {se : ServerEnv} {crng srng : List Bytes} (h : q.From se crng srng) : Sizes q se := by
  obtain ⟨r1, r2, r3, h1, h2, h3⟩ := h.client
  obtain ⟨s1, s2, s3, g1, g2, g3⟩ := h.server
  obtain ⟨_, rfl⟩ := between_urandom h1
  obtain ⟨l2, _, rfl⟩ := bytes_urandom h2
  obtain ⟨l3, _, rfl⟩ := bytes_urandom h3
  obtain ⟨l4, _, rfl⟩ := bytes_urandom g1
  obtain ⟨_, rfl⟩ := between_urandom g2
  have b1 := NegProof.between_range h1
  have b2 := NegProof.between_range g2
  exact ⟨l2, l3, l4, fun hc => (bytes_urandom (g3 hc)).1, ⟨by omega, b1.2⟩, ⟨by omega, b2.2⟩⟩

theorem offered {q : Draws} {ce : ClientEnv} {se : ServerEnv} {crng srng : List Bytes} (h : q.From se crng srng) :
    Offered ce crng q.clientKey (q.clientHello ce) := by
  have hs := sizes h
  obtain ⟨r1, r2, r3, h1, h2, h3⟩ := h.client
  exact ⟨r1, r2, r3, _, _, h1, h2, h3, hs.clientRandom, hs.sessionId, hs.clientKey.1, hs.clientKey.2, rfl⟩

/-- Both ends compute the secret. -/
theorem secret_server {q : Draws} {se : ServerEnv} {crng srng : List Bytes} (h : q.From se crng srng)
    (h1 : (publicShare q.clientKey).getD 0 0 ≠ 0) (h2 : (publicShare q.serverKey).getD 0 0 ≠ 0) :
    sharedSecret ⟨.curve25519, q.serverKey⟩ (publicShare q.clientKey) = .ok q.secret := by
  have hs := sizes h
  obtain ⟨ka, wa, ka', kb, wb, kb', s, g1, g2, g3, g4, g5, g6, g7, g8⟩ := agree_of hs.clientKey.1 hs.clientKey.2 hs.serverKey.1 hs.serverKey.2 h1 h2
  obtain ⟨k, w, e1, e2, e3⟩ := wire_eq hs.clientKey.1 hs.clientKey.2 []
  rw [e1] at g1; cases g1
  rw [e2] at g2; cases g2
  rw [List.append_nil, g3] at e3
  obtain rfl := (Prod.mk.inj (Res.ok.inj e3)).2
  obtain ⟨k, w, e1, e2, e3⟩ := wire_eq hs.serverKey.1 hs.serverKey.2 []
  rw [e1] at g4; cases g4
  rw [e2] at g5; cases g5
  rw [List.append_nil, g6] at e3
  obtain rfl := (Prod.mk.inj (Res.ok.inj e3)).2
  rw [h.secret] at g7
  rw [g8, Res.ok.inj g7]

theorem offer_le (q : Draws) {ce : ClientEnv} {se : ServerEnv} (hs : Sizes q se) (hn : ∀ a, ce.config.serverName = some a → a.length ≤ 3800) :
    (Tls13.clientOffer q.clientRandom q.sessionId (publicShare q.clientKey) ce.config.serverName).bytes.length ≤ 4000 := by
  have hl := HelloProof.offer_length q.clientRandom q.sessionId (publicShare q.clientKey) ce.config.serverName (publicShare_length _)
  unfold Tls13.ClientHelloMsg.bytes
  simp only [List.length_append, Tls13.vec2, beBytes_length, hl]
  have h1 := hs.clientRandom
  have h2 := hs.sessionId
  cases hname : ce.config.serverName with
  | none => simp [Tls13.clientOffer, h1, h2, Tls13.u16s]
  | some a =>
    have := hn a hname
    simp [Tls13.clientOffer, h1, h2, Tls13.u16s]
    omega

/-- The client's hello as the server reads it. -/
theorem offer_read (q : Draws) {ce : ClientEnv} {se : ServerEnv} (hs : Sizes q se) (hn : ∀ a, ce.config.serverName = some a → utf8Valid a = true ∧ a.length ≤ 3800) :
    ClientHello.fromRaw (Tls13.clientOffer q.clientRandom q.sessionId (publicShare q.clientKey) ce.config.serverName).bytes =
      .ok ⟨q.clientRandom, [.aes256GcmSha384, .aes128GcmSha256, .chacha20Poly1305Sha256], some q.sessionId,
        .keyShare ⟨[⟨.x25519, publicShare q.clientKey⟩]⟩ :: .supportedVersion true ::
          (match ce.config.serverName with
            | some n => [.serverName n]
            | none => [])⟩ := by
  have hl : (publicShare q.clientKey).reverse.length = 32 := by rw [List.length_reverse, publicShare_length]
  obtain ⟨wire, h1, h2⟩ := C35_client_hello_partial q.clientRandom q.sessionId (publicShare q.clientKey).reverse ce.config.serverName hs.clientRandom hs.sessionId hl
    (fun n h => ⟨(hn n h).1, by have := (hn n h).2; omega⟩)
  rw [C35_rfc_encoding _ _ _ _ hl, List.reverse_reverse] at h1
  rw [List.reverse_reverse] at h2
  rw [Res.ok.inj h1]
  exact h2

/-- The server's answer. -/
theorem answered {q : Draws} {ce : ClientEnv} {se : ServerEnv} {crng srng : List Bytes} (h : q.From se crng srng) (hm : Matching ce se)
    (h1 : (publicShare q.clientKey).getD 0 0 ≠ 0) (h2 : (publicShare q.serverKey).getD 0 0 ≠ 0) :
    (∃ rng, HelloAnsweredBy se srng (q.params ce) (q.clientHello ce) q.serverHello (Tls13.plainRecord 20#8 [1#8]) rng ∧
      ∀ ca, se.config.clientCertCa = some ca → ∃ rng', (rng.bytes 32 : Res TlsError (Bytes × Rng)) = .ok (q.context, rng')) ∧
    ServerAnswered (q.params ce) q.clientKey (q.clientHello ce) q.serverHello ∧ q.serverHello.length ≤ 200 := by
  have hs := sizes h
  obtain ⟨s1, s2, s3, g1, g2, g3⟩ := h.server
  have hoff := offer_le q (ce := ce) hs (fun a ha => (hm.utf8 a ha).2)
  obtain ⟨body, e1, e2, e3, e4⟩ := C36_server_hello q.serverRandom (some q.sessionId) .chacha20Poly1305Sha256 [(publicShare q.serverKey).reverse] hs.serverRandom
    (fun s hs' => by cases hs'; exact hs.sessionId) (by simp [publicShare_length]) (by simp)
  have hb : Tls13.handshakeMessage 2#8 body = q.serverHello := by
    rw [e2]
    simp [Draws.serverHello, CipherSuite.asU16]
  have hraw1 := fromRaw_message .clientHello (Tls13.clientOffer q.clientRandom q.sessionId (publicShare q.clientKey) ce.config.serverName).bytes [] (by omega)
  rw [List.append_nil] at hraw1
  have hraw2 := fromRaw_message .serverHello body [] (by simp at e3; omega)
  rw [List.append_nil] at hraw2
  have hacc := NegProof.accept_of (crandom := q.clientRandom) (sid := some q.sessionId) [.aes256GcmSha384, .aes128GcmSha256, .chacha20Poly1305Sha256]
    .chacha20Poly1305Sha256 rfl se.config.serverName (publicShare q.clientKey) (.supportedVersion true ::
      (match ce.config.serverName with
        | some n => [.serverName n]
        | none => [])) (by
      intro s
      cases hc : ce.config.serverName with
      | none => rfl
      | some a =>
        cases hse : se.config.serverName with
        | none => rfl
        | some b =>
          obtain rfl := hm.name a b hc hse
          simp only [List.foldlM_cons, List.foldlM_nil, ServerHello.onExtension, if_true, Res.ok_bind, ne_eq, not_true_eq_false, if_false]
          rfl) g1 hs.serverRandom g2
  refine ⟨⟨s2, ⟨_, _, _, ⟨.curve25519, q.serverKey⟩, ⟨.x25519, publicShare q.clientKey⟩, body, hraw1, rfl, offer_read q hs hm.utf8, hacc, e1, hb.symm, rfl, rfl,
    secret_server h h1 h2, rfl, rfl, rfl, rfl, rfl⟩, fun ca hca => ⟨s3, g3 (by rw [hca]; rfl)⟩⟩,
    ⟨_, _, ⟨.x25519, publicShare q.serverKey⟩, (by rw [← hb]; exact hraw2), rfl, e4, ?_, rfl, h.secret, rfl, rfl, rfl, rfl⟩, ?_⟩
  · rw [List.map_singleton, List.reverse_reverse]
    rfl
  · rw [← hb]
    simp [Tls13.handshakeMessage, beBytes_length] at e3 ⊢
    omega

/-! ### Identities -/

/-- What the holder of a certified key signs is accepted by the peer. -/
theorem verified_of {raw : Bytes} {key : PrivateKey} {now : Nat} {x : X509} (hid : Identity raw key now x) (role : Tls13.Role) {m : Bytes} (hm : m.length < 2 ^ 53)
    {nonces : List Int} (hs : Signs (fun v => 2 ^ 248 ≤ v) nonces key (Tls13.verifyContent role ((rfcHash .sha256).H m))) :
    ∃ sig der, Ecdsa.sign nonces key (Sha2.sha256 (Tls13.verifyContent role ((rfcHash .sha256).H m))) = .ok (some sig) ∧ sig.toDer = .ok der ∧ der.length ≤ 100 ∧
      Verified ⟨raw, some x⟩ role (ts .sha256 m) (Tls13.certificateVerifyMessage 0x0403 der) := by
  obtain ⟨hn, sig, h1, h2, h3⟩ := hs
  obtain ⟨hc, hd, _, ⟨pk, hpk, hx⟩, _⟩ := hid
  obtain ⟨curve, d⟩ := key
  simp only at hc hd
  subst hc
  obtain ⟨_, _, _, g1, g2, g3, g4⟩ := C29_sign_verify d hd _ nonces hn sig h1
  obtain ⟨r', hr⟩ := Int.eq_ofNat_of_zero_le (show 0 ≤ sig.r by omega)
  obtain ⟨s', hs'⟩ := Int.eq_ofNat_of_zero_le (show 0 ≤ sig.s by omega)
  have hder : ∃ der, sig.toDer = .ok der := by
    obtain ⟨s, r⟩ := sig
    simp only at hr hs' g1 g2 g3 g4 h2 h3
    subst hr hs'
    exact ⟨_, (C31_der_partial r' s' (by omega) (by exact_mod_cast g2) (by omega) (by exact_mod_cast g4) (by exact_mod_cast h2) (by exact_mod_cast h3)).1⟩
  obtain ⟨der, hder⟩ := hder
  have hcv := FlowProof.cvBody_of role hm h1 hder
  obtain ⟨sig', der', k1, k2, k3, k4⟩ := ServerProof.cvBody_inv role hm hcv
  rw [h1] at k1
  cases k1
  rw [hder] at k2
  cases k2
  refine ⟨sig, der, h1, hder, k4, (C69_accepted_partial d nonces (ts .sha256 m) role ⟨raw, some x⟩ x pk _ hd hn hpk rfl hx ?_ hcv).1⟩
  intro sig' hsig'
  have hc := CertProof.content_eq (ts .sha256 m) role
  have hl := CertProof.finalize_le (ts .sha256 m)
  rw [ts_finalize .sha256 m hm] at hc hl
  have hc' : Certificate.verifyContent (ts .sha256 m) (roleLabel role) = Tls13.verifyContent role ((rfcHash .sha256).H m) := hc
  rw [hc', (C06_sha256_fips _ (by
    simp only [Tls13.verifyContent, List.length_append, List.length_replicate, CertProof.context_length, List.length_singleton]
    omega)).1] at hsig'
  rw [h1] at hsig'
  cases hsig'
  exact ⟨h2, h3⟩

/-- A certificate message with the certificate of an identity. -/
theorem presented_of {raw : Bytes} {key : PrivateKey} {now : Nat} {x : X509} (hid : Identity raw key now x) (context : Bytes) (hc : context.length < 256)
    (hl : raw.length + 100 < 2 ^ 24) : Certificate.fromHello now (Tls13.certificateMessage context [(raw, [])]) = .ok [⟨raw, some x⟩] := by
  refine ((C70_read now context hc).2 raw [] [] ?_).1 x hid.parsed hid.valid
  simp [Tls13.certificateEntry, beBytes_length]
  omega

/-- What is sent is determined. -/
theorem sent_unique {a : Tls13.Seal} {key iv : Bytes} : ∀ {seq : Nat} {ms : List Bytes} {w w' : Bytes}, Tls13.Sent a key iv seq ms w → Tls13.Sent a key iv seq ms w' → w = w'
  | _, [], _, _, h, h' => h.trans h'.symm
  | seq, m :: ms, w, w', ⟨ct, tag, rest, h1, h2, h3⟩, ⟨ct', tag', rest', h1', h2', h3'⟩ => by
    rw [h1] at h1'
    obtain ⟨rfl, rfl⟩ := Prod.mk.inj (Option.some.inj h1')
    rw [h2, h2', sent_unique h3 h3']

/-- A flight without change_cipher_spec records. -/
theorem no_ccs {a : Tls13.Seal} {key iv : Bytes} {seq : Nat} {contents records : List Bytes} (h : Tls13.ProtectedFlight a key iv seq contents records) :
    contents.length ≤ records.length ∧ (records.length = contents.length → ∀ w ∈ records, ¬ ∃ c, Tls13.IsRecord 20#8 c w) := by
  induction h with
  | nil seq => simp
  | ccs seq contents c w ws h1 h2 ih =>
    simp only [List.length_cons]
    exact ⟨by omega, fun h => by omega⟩
  | cons seq c cs w ws h1 h2 ih =>
    simp only [List.length_cons]
    refine ⟨by omega, fun h v hv => ?_⟩
    rcases List.mem_cons.1 hv with rfl | hv
    · obtain ⟨ct, tag, n, _, rfl, _⟩ := h1
      rintro ⟨c, v1, v2, _, he⟩
      simp [Tls13.protectedHeader] at he
    · exact ih.2 (by omega) v hv

end ATLS.PairProof
