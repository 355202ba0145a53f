import Verif.Props.RfcServer
/-
C82: a concrete server that follows RFC 8446 and with which the client completes the handshake, with and without a certificate request; and a server
with which it does not behave as RFC 8446 prescribes.
-/
namespace ATLS
open ATLS.Model ATLS.Spec FlowProof RfcProof

namespace RfcProof

/-- Every list of contents can be protected. -/
theorem flight_exists (u : Tls13.Suite) (key iv : Bytes) : ∀ (contents : List Bytes) (seq : Nat), (∀ c ∈ contents, c.length + 17 < 2 ^ 16) →
    ∃ records, Tls13.ProtectedFlight u.protect key iv seq contents records ∧ (∀ w ∈ records, ∃ c ∈ contents, w.length = c.length + 22) ∧ records.length = contents.length
  | [], seq, _ => ⟨[], .nil seq, by simp, rfl⟩
  | c :: cs, seq, h => by
    obtain ⟨records, h1, h2, h3⟩ := flight_exists u key iv cs (seq + 1) fun c' hc => h c' (by simp [hc])
    obtain ⟨⟨ct, tag⟩, he⟩ : ∃ p, p = u.aead.encrypt key (Tls13.nonce iv seq) (c ++ [22#8] ++ zeros 0) (Tls13.protectedHeader (c.length + 1 + 0)) := ⟨_, rfl⟩
    have he' : u.protect key (Tls13.nonce iv seq) (c ++ [22#8] ++ zeros 0) (Tls13.protectedHeader (c.length + 1 + 0)) = some (ct, tag) := by
      unfold Tls13.Suite.protect
      rw [← he]
    obtain ⟨t1, t2⟩ := tag_eq he'
    refine ⟨_, .cons seq c cs (Tls13.protectedHeader (c.length + 1 + 0) ++ ct ++ tag) records ⟨ct, tag, 0, by have := h c (by simp); omega, rfl, he'⟩ h1, ?_, by rw [List.length_cons, List.length_cons, h3]⟩
    intro w hw
    rcases List.mem_cons.1 hw with rfl | hw
    · refine ⟨c, by simp, ?_⟩
      simp only [List.length_append, t1, t2, Tls13.protectedHeader, beBytes_length, List.length_cons, List.length_nil, zeros, List.length_replicate]
      omega
    · obtain ⟨c', h3, h4⟩ := h2 w hw
      exact ⟨c', by simp [h3], h4⟩

/-- One message per record. -/
theorem coalesced_single (ms : List Bytes) : Tls13.Coalesced ms ms := by
  refine ⟨ms.map fun m => [m], ?_, ?_, ?_⟩
  · induction ms with
    | nil => rfl
    | cons m ms ih => simp [ih]
  · rw [List.map_map]
    exact (List.map_id' ms).symm.trans (List.map_congr_left fun m _ => by simp)
  · intro g hg
    obtain ⟨m, _, rfl⟩ := List.mem_map.1 hg
    simp

theorem public_point (d : Int) : (⟨.secp256r1, d⟩ : PrivateKey).getPublicKey = .ok ⟨EcdsaProof.pt (d • P256.G), .secp256r1⟩ := by
  unfold PrivateKey.getPublicKey
  simp only [EcdsaProof.g_eq, EcdsaProof.multiply_eq, Res.ok_bind]

theorem coords_of {d : Int} {Q : Nat × Nat} (h : (⟨.secp256r1, d⟩ : PrivateKey).getPublicKey = .ok ⟨⟨Q.1, Q.2⟩, .secp256r1⟩) :
    P256.coords (d • P256.G) = ((Q.1 : Int), (Q.2 : Int)) := by
  have h := congrArg PublicKey.point (Res.ok.inj ((public_point d).symm.trans h))
  exact Prod.ext (congrArg Point.x h) (congrArg Point.y h)

/-- The coordinates of the repository's key. -/
def ownQ : Nat × Nat := (0x6eed2bfee88db30f90001b34f24ad85a96aedc7c01d175f81d6da2a3d96f29c8, 0x6d5e14735b63f2d579e067b503bb42c1d934f5b7316fa57a13d0454577d194e5)

theorem own_coords : P256.coords (ownKey.secret • P256.G) = ((ownQ.1 : Int), (ownQ.2 : Int)) :=
  coords_of (Q := ownQ) (d := ownKey.secret) (by decide +kernel)

end RfcProof

/-- The repository's certificate is valid in June 2023. -/
theorem own_period : Tls13.Cert.InPeriod ⟨ownTbs, ownR, ownS⟩ june2023 := ⟨by decide +kernel, by decide +kernel⟩

/-- A server with the repository's certificate and key that follows RFC 8446: TLS_AES_128_GCM_SHA256, the X25519 private key 257, and the given
certificate requests and signature. -/
def rfcServer (requests : List Bytes) (r s : Nat) : Tls13.Server where
  key := scalarBytes 257
  random := zeros 32
  code := 0x1301
  suite := ⟨hashSha256, 16, .aesGcm⟩
  helloExtensions := [.keyShare (29, Tls13.x25519Public (scalarBytes 257)), .supportedVersions 0x0304]
  extensions := [0#8, 0#8]
  requests := requests
  proof := ⟨⟨ownTbs, ownR, ownS⟩, [], [], r, s⟩

/-- No request, or one request. -/
def exampleRequests (ask : Bool) : List Bytes := if ask then [Tls13.certificateRequest (zeros 32) [0x0403]] else []

namespace RfcProof

theorem example_secret : (X25519.x25519 (scalarBytes 257) (publicShare 256)).getD 0 0 ≠ 0 := by
  rw [publicShare_n, LadderProof.nx25519_eq]
  decide +kernel

theorem hello_length (requests : List Bytes) (r s : Nat) {sid : Bytes} (hsid : sid.length = 32) : ((rfcServer requests r s).hello sid).length = 122 := by
  have hsh := public_length (scalarBytes_length 257)
  simp [Tls13.Server.hello, Tls13.Server.helloMsg, rfcServer, Tls13.handshakeMessage, Tls13.ServerHelloMsg.bytes, Tls13.ServerExt.bytes, Tls13.ServerExt.body,
    Tls13.share, Tls13.vec2, beBytes_length, hsh, hsid, zeros]

/-- The same server with other EncryptedExtensions. -/
def extServer (ext : Bytes) (ask : Bool) (r s : Nat) : Tls13.Server := { rfcServer (exampleRequests ask) r s with extensions := ext }

theorem ext_opening (ext : Bytes) (hext : ext.length ≤ 900) (ask : Bool) :
    (∀ c ∈ (extServer ext ask 0 0).opening, c.length ≤ 1000) ∧ (extServer ext ask 0 0).opening.flatten.length ≤ 2000 := by
  obtain ⟨rest, hr⟩ : ∃ rest, rest = (exampleRequests ask).map (Tls13.handshakeMessage 13#8) ++ [(rfcServer (exampleRequests ask) 0 0).proof.certificate []] := ⟨_, rfl⟩
  have e : (extServer ext ask 0 0).opening = Tls13.handshakeMessage 8#8 ext :: rest := by rw [hr]; rfl
  have h1 : ∀ c ∈ rest, c.length ≤ 1000 := by rw [hr]; cases ask <;> decide +kernel
  have h2 : rest.flatten.length ≤ 1000 := by rw [hr]; cases ask <;> decide +kernel
  have h3 : (Tls13.handshakeMessage 8#8 ext).length ≤ 904 := by
    simp only [Tls13.handshakeMessage, List.length_append, beBytes_length, List.length_singleton]
    omega
  rw [e]
  constructor
  · intro c hc
    rcases List.mem_cons.1 hc with rfl | hc
    · omega
    · exact h1 c hc
  · rw [List.flatten_cons, List.length_append]
    omega

/-- It can make its signature and send its messages, whatever the ClientHello, the session id it sends back and its EncryptedExtensions. -/
theorem server_exists_ext (ext : Bytes) (hext : ext.length ≤ 900) (ask : Bool) (ch : Bytes) (hch : ch.length < 2 ^ 45) (sid : Bytes) (hsid : sid.length = 32) : ∃ r s shRec records,
    (extServer ext ask r s).Follows ch sid (publicShare 256) june2023 ∧
    (extServer ext ask r s).Sends ch sid (publicShare 256) shRec records ∧
    Tls13.Pieces 2048 [] (shRec :: (records ++ [])) (shRec :: records) ∧ (shRec :: records).flatten.length < 2 ^ 24 := by
  have hreq : (exampleRequests ask).length ≤ 1 ∧ ∀ b ∈ exampleRequests ask, Tls13.IsCertificateRequest b := by
    cases ask with
    | false => exact ⟨by simp [exampleRequests], by simp [exampleRequests]⟩
    | true =>
      refine ⟨by simp [exampleRequests], ?_⟩
      intro b hb
      rw [exampleRequests, if_pos rfl, List.mem_singleton] at hb
      rw [hb]
      exact C76_request _ _ (by decide) (by decide)
  have hsh := public_length (scalarBytes_length 257)
  obtain ⟨v0, hv0⟩ : ∃ v0, v0 = extServer ext ask 0 0 := ⟨_, rfl⟩
  obtain ⟨m, hm⟩ : ∃ m, m = (v0.session ch sid (publicShare 256)).hellos ++ v0.opening.flatten := ⟨_, rfl⟩
  obtain ⟨ks, hs⟩ := PairProof.signs_of (key := ownKey) rfl (by decide +kernel) (Tls13.verifyContent .server (v0.suite.hash.H m))
  have hhl : (v0.suite.hash.H m).length = 32 := by
    have e : v0.suite.hash.H m = Sha2.sha256 m := by rw [hv0]; rfl
    rw [e]
    refine sha_length ?_
    have h1 : v0.opening.flatten.length ≤ 2000 := by rw [hv0]; exact (ext_opening ext hext ask).2
    have h2 : (v0.hello sid).length = 122 := by rw [hv0]; exact hello_length (exampleRequests ask) 0 0 hsid
    rw [hm]
    simp only [Tls13.Server.session, List.length_append]
    omega
  obtain ⟨r, s, _, _, h3, _, _⟩ := signed_rfc (key := ownKey) rfl (by decide +kernel) (by
    simp only [Tls13.verifyContent, List.length_append, List.length_replicate, CertProof.context_length, List.length_singleton]
    omega) hs
  rw [own_coords] at h3
  obtain ⟨v, hv⟩ : ∃ v, v = extServer ext ask r s := ⟨_, rfl⟩
  have hf : v.Follows ch sid (publicShare 256) june2023 := by
    rw [hv]
    refine ⟨scalarBytes_length 257, ?_, by simp [extServer, rfcServer, Tls13.suites], rfl, rfl, hreq, ?_⟩
    · refine ⟨rfl, by simp [Tls13.Server.helloMsg, hsid], by simp [Tls13.Server.helloMsg, extServer, rfcServer], ?_, ?_⟩
      · intro e he
        simp only [Tls13.Server.helloMsg, extServer, rfcServer, List.mem_cons, List.not_mem_nil, or_false] at he
        rcases he with rfl | rfl
        · exact ⟨by simp, by simp only [hsh]; omega⟩
        · show (0x0304 : Nat) < 65536
          decide
      · simp [Tls13.Server.helloMsg, extServer, rfcServer, Tls13.ServerExt.bytes, Tls13.ServerExt.body, Tls13.share, Tls13.vec2, beBytes_length, hsh]
    · refine ⟨X509Proof.own_wellFormed, ?_, ?_, ⟨ownQ, ?_, ?_⟩⟩
      · exact own_period
      · show (([(Tls13.Cert.der ⟨ownTbs, ownR, ownS⟩, ([] : Bytes))]).map Tls13.certificateEntry).flatten.length < 2 ^ 24
        decide +kernel
      · exact ⟨by decide +kernel, by decide +kernel, rfl⟩
      · rw [hm, hv0] at h3
        exact h3
  obtain ⟨session, hsess⟩ : ∃ session, session = v.session ch sid (publicShare 256) := ⟨_, rfl⟩
  obtain ⟨cs, t, c, hl⟩ := lib_suite hf.suite
  have hhello : (v.hello sid).length = 122 := by rw [hv]; exact hello_length (exampleRequests ask) r s hsid
  have hverify : v.proof.verify.length ≤ 80 := by
    obtain ⟨_, _, _, _, r2, _, t2, _⟩ := h3
    have hn256 := n_lt
    have h1 := sig_length (r := r) (s := s) (by omega) (by omega)
    have h2 := intLen_le (n := r) (by omega)
    have h3 := intLen_le (n := s) (by omega)
    rw [hv]
    simp only [extServer, rfcServer, Tls13.Proof.verify, Tls13.handshakeMessage, Tls13.certificateVerifyMessage, List.length_append, beBytes_length, List.length_singleton]
    omega
  have hopen : ∀ c ∈ v.opening, c.length ≤ 1000 := by
    have : v.opening = v0.opening := by rw [hv, hv0]; rfl
    rw [this, hv0]
    exact (ext_opening ext hext ask).1
  have hopen' : v.opening.flatten.length ≤ 3 * 1001 := by
    refine le_trans (flatten_le (n := 1001) fun c hc => Nat.lt_succ_of_le (hopen c hc)) (Nat.mul_le_mul_right _ ?_)
    have := hreq.1
    rw [hv]
    simp only [Tls13.Server.opening, extServer, rfcServer, List.length_append, List.length_map, List.length_cons, List.length_nil]
    omega
  have hmsgs : ∀ c ∈ v.flight session, c.length ≤ 1000 := by
    intro c hc
    rcases List.mem_append.1 hc with hc | hc
    · exact hopen c hc
    · simp only [List.mem_cons, List.not_mem_nil, or_false] at hc
      rcases hc with rfl | rfl
      · omega
      · have hs := session_eq (ch := ch) (sid := sid) (share := publicShare 256) hl
        rw [hsess, ← hs]
        refine le_trans (finished_le _ _ _ ?_) (by decide)
        simp only [Params.sess, List.length_append, List.flatten_append, List.flatten_cons, List.flatten_nil, hhello, List.length_nil]
        omega
  obtain ⟨records, q1, q2, q3⟩ := flight_exists v.suite (session.key .server) (session.iv .server) (v.flight session) 0 (fun c hc => by have := hmsgs c hc; omega)
  refine ⟨r, s, Tls13.plainRecord 22#8 (v.hello sid), records, ?_⟩
  rw [← hv]
  have hall : ∀ w ∈ Tls13.plainRecord 22#8 (v.hello sid) :: records, w.length < 2048 := ?_
  · refine ⟨hf, ⟨⟨3#8, 3#8, by omega, rfl⟩, _, coalesced_single _, by rw [← hsess]; exact q1⟩, ?_, ?_⟩
    · rw [List.append_nil]
      exact (Tls13.delivers_single fun w hw => Nat.le_of_lt (hall w hw)).pieces
    · refine lt_of_le_of_lt (flatten_le hall) ?_
      have : (v.flight session).length ≤ 5 := by
        have := hreq.1
        rw [hv]
        simp only [Tls13.Server.flight, Tls13.Server.opening, extServer, rfcServer, List.length_append, List.length_map, List.length_cons, List.length_nil]
        omega
      rw [List.length_cons, q3]
      omega
  intro w hw
  rcases List.mem_cons.1 hw with rfl | hw
  · simp only [Tls13.plainRecord, List.length_append, beBytes_length, hhello, List.length_cons, List.length_nil]
    omega
  · obtain ⟨c, h1, h2⟩ := q2 w hw
    have := hmsgs c h1
    omega

/-- With the empty list of extensions. -/
theorem server_exists_sid (ask : Bool) (ch : Bytes) (hch : ch.length < 2 ^ 45) (sid : Bytes) (hsid : sid.length = 32) : ∃ r s shRec records,
    (rfcServer (exampleRequests ask) r s).Follows ch sid (publicShare 256) june2023 ∧
    (rfcServer (exampleRequests ask) r s).Sends ch sid (publicShare 256) shRec records ∧
    Tls13.Pieces 2048 [] (shRec :: (records ++ [])) (shRec :: records) ∧ (shRec :: records).flatten.length < 2 ^ 24 :=
  server_exists_ext [0#8, 0#8] (by decide) ask ch hch sid hsid

/-- The same with the client's session id. -/
theorem server_exists (ask : Bool) (ch : Bytes) (hch : ch.length < 2 ^ 45) : ∃ r s shRec records,
    (rfcServer (exampleRequests ask) r s).Follows ch (zeros 32) (publicShare 256) june2023 ∧
    (rfcServer (exampleRequests ask) r s).Sends ch (zeros 32) (publicShare 256) shRec records ∧
    Tls13.Pieces 2048 [] (shRec :: (records ++ [])) (shRec :: records) ∧ (shRec :: records).flatten.length < 2 ^ 24 :=
  server_exists_sid ask ch hch (zeros 32) (by simp [zeros])

end RfcProof

/-- The ClientHello of the example client, with the server name `name`. -/
def offerFor (name : Bytes) : Bytes :=
  Tls13.handshakeMessage 1#8 (Tls13.clientOffer (zeros 32) (zeros 32) (publicShare 256) (some name)).bytes
def exampleOffer : Bytes := offerFor (ascii "anothertls.local")

namespace RfcProof

theorem offer_short : exampleOffer.length < 2 ^ 45 := offer_le (by simp [zeros]) (by simp [zeros]) 256 (by intro a ha; cases ha; decide +kernel)

/-- What the theorem says about the example. -/
theorem instance_of {S : Int → Prop} {P : ClientEnv → Tls13.Server → Bytes → List Bytes → Prop} (hC : C82_for S P) (env : ClientEnv) {name : Bytes} (hnl : name.length ≤ 16000)
    (hn : env.config.serverName = some name) (v : Tls13.Server) (session : Tls13.Session) (messages shRec : Bytes)
    (records : List Bytes) (h1 : session = v.session (offerFor name) (zeros 32) (publicShare 256))
    (h2 : messages = v.transcript (offerFor name) (zeros 32) (publicShare 256)) (h3 : v.Follows (offerFor name) (zeros 32) (publicShare 256) env.now)
    (h4 : v.Sends (offerFor name) (zeros 32) (publicShare 256) shRec records) (h5 : Able S env session messages v.requests)
    (h6 : P env v (publicShare 256) records) (h7 : Tls13.Pieces 2048 [] (shRec :: (records ++ [])) (shRec :: records)) :
    ∃ s h auth cwire, ClientConnection.connect env [zeros 100, zeros 100, zeros 100] ⟨shRec :: records, [], []⟩ = (.ok s, h) ∧
      ClientProof env session messages v.requests auth ∧
      Tls13.Sent v.suite.protect (session.key .client) (session.iv .client) 0 (auth ++ [session.finished .client (messages ++ auth.flatten)]) cwire ∧
      s.stream.written = Tls13.plainRecord 22#8 (offerFor name) ++ cwire := by
  obtain ⟨n, key, random, sid, ch, rng1, rng2, rng3, e1, e2, e3, e4, _, _, _, e5, _, e6⟩ := hC env (zeros 100) (zeros 100) (zeros 100) [] rfl rfl rfl
    (by intro a ha; rw [hn] at ha; cases ha; exact hnl)
  rw [example_between.1] at e1
  obtain ⟨rfl, rfl⟩ := Prod.mk.inj (Res.ok.inj e1)
  have f3 : ((Rng.urandom [zeros 100, zeros 100]).bytes 32 : Res TlsError (Bytes × Rng)) = .ok (zeros 32, .urandom [zeros 100]) := rfl
  rw [f3] at e3
  obtain ⟨rfl, rfl⟩ := Prod.mk.inj (Res.ok.inj e3)
  have f4 : ((Rng.urandom [zeros 100]).bytes 32 : Res TlsError (Bytes × Rng)) = .ok (zeros 32, .urandom []) := rfl
  rw [f4] at e4
  obtain ⟨rfl, rfl⟩ := Prod.mk.inj (Res.ok.inj e4)
  rw [e2, ← publicShare_eq, hn] at e5
  have e5 : ch = offerFor name := e5
  rw [e2, ← publicShare_eq, e5] at e6
  obtain ⟨s, h, auth, cwire, g1, g2, g3, g4, _⟩ := e6 v session messages shRec records [] (shRec :: records) h1 h2 h3 h4 h5 h6 (by simp) h7
  exact ⟨s, h, auth, cwire, g1, g2, g3, g4⟩

theorem example_handled (env : ClientEnv) (hnow : env.now = june2023) (ask : Bool) (r s : Nat) (records : List Bytes) (hc : ask = true → env.config.clientCert ≠ none) :
    HandledServer env (rfcServer (exampleRequests ask) r s) (publicShare 256) records where
  publicValue := by
    show (Tls13.x25519Public (scalarBytes 257)).getD 0 0 ≠ 0
    rw [← publicShare_eq]
    exact example_shares.2
  secret := example_secret
  dates := by
    rw [hnow]
    show GoodDates ⟨ownTbs, ownR, ownS⟩ june2023
    exact ⟨by decide, by decide, Or.inr (Or.inr (by decide +kernel))⟩
  size := by
    show (Spec.X509.certificate ownTbs ownR ownS).length < 2 ^ 16
    decide +kernel
  certificate := by
    cases ask with
    | false => intro h; exact absurd rfl h
    | true => intro _; exact hc rfl
  records := fun h => by cases h
  own := fun h => by cases h

end RfcProof

/-- C82 is about something: with the repository's certificate and key on both ends, the client completes the handshake with a server that follows RFC
8446 and does not ask for a certificate, and with one that asks for one. -/
theorem C82_example (ask : Bool) : ∃ (kc : Int) (r s : Nat) (shRec : Bytes) (records : List Bytes) (str : TlsStream) (h : _),
    (rfcServer (exampleRequests ask) r s).Follows exampleOffer (zeros 32) (publicShare 256) june2023 ∧
    (rfcServer (exampleRequests ask) r s).Sends exampleOffer (zeros 32) (publicShare 256) shRec records ∧
    ClientConnection.connect { exampleClient (some (ascii "anothertls.local")) with nonces := [kc] } [zeros 100, zeros 100, zeros 100]
      ⟨shRec :: records, [], []⟩ = (.ok str, h) := by
  obtain ⟨r, s, shRec, records, h1, h2, h3, _⟩ := server_exists ask exampleOffer offer_short
  obtain ⟨v, hv⟩ : ∃ v, v = rfcServer (exampleRequests ask) r s := ⟨_, rfl⟩
  obtain ⟨messages, hm⟩ : ∃ messages, messages = v.transcript exampleOffer (zeros 32) (publicShare 256) := ⟨_, rfl⟩
  obtain ⟨session, hs⟩ : ∃ session, session = v.session exampleOffer (zeros 32) (publicShare 256) := ⟨_, rfl⟩
  obtain ⟨kc, hk⟩ := PairProof.signs_of (key := ownKey) rfl (by decide +kernel) (Tls13.verifyContent .client (session.hash.H (messages ++
    Tls13.ownCertificate (Tls13.requestContext (Tls13.certificateRequest (zeros 32) [0x0403])) (some (Spec.X509.certificate ownTbs ownR ownS)))))
  obtain ⟨str, h, _, _, g, _⟩ := instance_of C82_client_partial { exampleClient (some (ascii "anothertls.local")) with nonces := [kc] } (name := ascii "anothertls.local") (by decide +kernel) rfl v session messages shRec records hs hm
    (by rw [hv]; exact h1) (by rw [hv]; exact h2) (by
      intro cert hcert
      obtain rfl := Option.some.inj hcert
      refine ⟨by show (Spec.X509.certificate ownTbs ownR ownS).length ≤ 16000; decide +kernel, ownKey, rfl, rfl, by decide +kernel, ?_⟩
      intro request hr
      rw [hv] at hr
      cases ask with
      | false => simp [rfcServer, exampleRequests] at hr
      | true =>
        rw [List.mem_singleton.1 hr]
        exact hk) (by rw [hv]; exact example_handled _ rfl ask r s records (by simp [exampleClient])) h3
  exact ⟨kc, r, s, shRec, records, str, h, h1, h2, g⟩

/-- C82 is false as stated: a client without a certificate answers the request with a message that is not RFC 8446's empty Certificate message. -/
theorem C82_false : ¬ C82_statement := by
  intro hC
  obtain ⟨r, s, shRec, records, h1, h2, h3, hin⟩ := server_exists true exampleOffer offer_short
  obtain ⟨env, henv⟩ : ∃ env : ClientEnv, env = ⟨⟨some (ascii "anothertls.local"), none, none, none⟩, [], june2023⟩ := ⟨_, rfl⟩
  have hname : env.config.serverName = some (ascii "anothertls.local") := by rw [henv]
  have hcert : env.config.clientCert = none := by rw [henv]
  obtain ⟨v, hv⟩ : ∃ v, v = rfcServer (exampleRequests true) r s := ⟨_, rfl⟩
  rw [← hv] at h1 h2
  obtain ⟨messages, hm⟩ : ∃ messages, messages = v.transcript exampleOffer (zeros 32) (publicShare 256) := ⟨_, rfl⟩
  obtain ⟨session, hs⟩ : ∃ session, session = v.session exampleOffer (zeros 32) (publicShare 256) := ⟨_, rfl⟩
  have hnow : env.now = june2023 := by rw [henv]
  rw [← hnow] at h1
  obtain ⟨str, h, auth, cwire, g1, g2, g3, g4⟩ := instance_of hC env (by decide +kernel) hname v session messages shRec records hs hm h1 h2
    (by intro cert hc; rw [hcert] at hc; cases hc) trivial h3
  have hreq : v.requests = [Tls13.certificateRequest (zeros 32) [0x0403]] := by rw [hv]; rfl
  obtain ⟨cm, hcm, g2⟩ : ClientProof env session messages [Tls13.certificateRequest (zeros 32) [0x0403]] auth := by rw [← hreq]; exact g2
  rw [if_pos hcert] at g2
  rw [hcert] at hcm
  -- what the library does
  have hoff : Offered env [zeros 100, zeros 100, zeros 100] 256 exampleOffer :=
    ⟨_, _, _, zeros 32, zeros 32, example_between.1, rfl, rfl, by simp [zeros], by simp [zeros], by norm_num, by norm_num, by rw [hname]; rfl⟩
  obtain ⟨w1, w2, w3, w4, w5, w6, w7⟩ := example_handled { env with config := { env.config with clientCert := some ⟨[], none⟩ } } hnow true r s records (by simp)
  rw [← hv] at w1 w2 w3 w4 w6
  obtain ⟨x, hxs, hl, _, hconf⟩ := conforming_rfc hoff (by simp [zeros]) (by norm_num) offer_short hs hm h1 h2 w1 w2 w3 w4 w6
  obtain ⟨str', h', cwire', p, k1, k2, k3, _⟩ := C76_client_completes env _ 256 x exampleOffer _ shRec messages
    [Tls13.handshakeMessage 11#8 (beBytes 1 (zeros 32).length ++ zeros 32 ++ [0#8, 0#8, 0#8, 2#8, 0#8, 0#8])] records [] (shRec :: records)
    (by intro c hc; rw [hcert] at hc; cases hc) (hconf _ (by
      rw [hreq]
      refine ⟨zeros 32, beBytes 2 13 ++ beBytes 2 4 ++ (beBytes 2 2 ++ beBytes 2 0x0403), [], by simp [zeros], by decide, ?_⟩
      rw [hcert])) (by simp) h3
  rw [k1] at g1
  obtain rfl := Res.ok.inj (Prod.mk.inj g1).1
  have hw : cwire' = cwire := List.append_cancel_left (k3.symm.trans g4)
  rw [g2, hcm] at g3
  obtain ⟨ct, tag, rest, _, e1, _⟩ := g3
  obtain ⟨ct', tag', rest', _, e2, _⟩ := k2
  have := congrArg (List.take 5) (e2.symm.trans (hw.trans e1))
  revert this
  simp only [List.append_assoc]
  rw [List.take_left' (by simp [Tls13.protectedHeader, beBytes_length]), List.take_left' (by simp [Tls13.protectedHeader, beBytes_length])]
  decide +kernel

namespace RfcProof

/-- The length of a Finished message. -/
theorem finished_length (x : Params) (side : Tls13.Side) (m : Bytes) : (x.sess.finished side m).length = 4 + (rfcHash x.t).out := by
  unfold Tls13.Session.finished Tls13.handshakeMessage Tls13.verifyData Spec.hmac
  simp only [List.length_append, beBytes_length, List.length_cons, List.length_nil]
  rw [show x.sess.hash = rfcHash x.t from rfl, rfc_length]

theorem offered_unique {env : ClientEnv} {reads : List Bytes} {n n' : Int} {ch ch' : Bytes} (h : Offered env reads n ch) (h' : Offered env reads n' ch') : ch = ch' := by
  obtain ⟨r1, r2, r3, a, b, e1, e2, e3, _, _, _, _, e4⟩ := h
  obtain ⟨r1', r2', r3', a', b', f1, f2, f3, _, _, _, _, f4⟩ := h'
  obtain ⟨rfl, rfl⟩ := Prod.mk.inj (Res.ok.inj (e1.symm.trans f1))
  obtain ⟨rfl, rfl⟩ := Prod.mk.inj (Res.ok.inj (e2.symm.trans f2))
  obtain ⟨rfl, rfl⟩ := Prod.mk.inj (Res.ok.inj (e3.symm.trans f3))
  rw [e4, f4]

end RfcProof

/-- C73 is false as stated: a client without a certificate that is asked for one sends no Certificate message of RFC 8446. -/
theorem C73_false : ¬ C73_statement := by
  intro hC
  obtain ⟨r, s, shRec, records, h1, h2, h3, hin⟩ := server_exists true exampleOffer offer_short
  obtain ⟨env, henv⟩ : ∃ env : ClientEnv, env = ⟨⟨some (ascii "anothertls.local"), none, none, none⟩, [], june2023⟩ := ⟨_, rfl⟩
  have hname : env.config.serverName = some (ascii "anothertls.local") := by rw [henv]
  have hcert : env.config.clientCert = none := by rw [henv]
  obtain ⟨v, hv⟩ : ∃ v, v = rfcServer (exampleRequests true) r s := ⟨_, rfl⟩
  rw [← hv] at h1 h2
  obtain ⟨messages, hm⟩ : ∃ messages, messages = v.transcript exampleOffer (zeros 32) (publicShare 256) := ⟨_, rfl⟩
  obtain ⟨session, hs⟩ : ∃ session, session = v.session exampleOffer (zeros 32) (publicShare 256) := ⟨_, rfl⟩
  have hnow : env.now = june2023 := by rw [henv]
  rw [← hnow] at h1
  have hreq : v.requests = [Tls13.certificateRequest (zeros 32) [0x0403]] := by rw [hv]; rfl
  have hoff : Offered env [zeros 100, zeros 100, zeros 100] 256 exampleOffer :=
    ⟨_, _, _, zeros 32, zeros 32, example_between.1, rfl, rfl, by simp [zeros], by simp [zeros], by norm_num, by norm_num, by rw [hname]; rfl⟩
  obtain ⟨w1, w2, w3, w4, w5, w6, w7⟩ := example_handled { env with config := { env.config with clientCert := some ⟨[], none⟩ } } hnow true r s records (by simp)
  rw [← hv] at w1 w2 w3 w4 w6
  obtain ⟨x, hxs, hl, _, hconf⟩ := conforming_rfc hoff (by simp [zeros]) (by norm_num) offer_short hs hm h1 h2 w1 w2 w3 w4 w6
  obtain ⟨str', h', cwire', p, k1, k2, k3, _⟩ := C76_client_completes env _ 256 x exampleOffer _ shRec messages
    [Tls13.handshakeMessage 11#8 (beBytes 1 (zeros 32).length ++ zeros 32 ++ [0#8, 0#8, 0#8, 2#8, 0#8, 0#8])] records [] (shRec :: records)
    (by intro c hc; rw [hcert] at hc; cases hc) (hconf _ (by
      rw [hreq]
      refine ⟨zeros 32, beBytes 2 13 ++ beBytes 2 4 ++ (beBytes 2 2 ++ beBytes 2 0x0403), [], by simp [zeros], by decide, ?_⟩
      rw [hcert])) (by simp) h3
  have hnm : ∀ n, env.config.serverName = some n → n.length < 2 ^ 24 := by
    intro a ha; rw [hname] at ha; cases ha; decide +kernel
  obtain ⟨⟨run, hrun⟩, hall⟩ := hC env _ _ str' h' (by intro c hc; rw [hcert] at hc; cases hc) hnm hin k1
  obtain ⟨g1, g2⟩ := hall run hrun trivial
  cases hq : run.requests.getLast? with
  | some request =>
    rw [hq] at g2
    obtain ⟨context, extensions, rest, hcl, _, g2⟩ := g2
    unfold RfcAnswer at g2
    rw [hcert] at g2
    obtain ⟨body, b1, b2⟩ := (C73_no_certificate env _ _ str' h' hcert hnm hin k1).2 run hrun (by rintro e; rw [e] at hq; cases hq)
    rw [g2] at b1
    refine b2 context [] hcl ?_
    have := List.cons.inj b1
    have := this.1
    unfold Tls13.handshakeMessage at this
    exact (List.append_inj this (by simp [beBytes_length])).2.symm
  | none =>
    rw [hq] at g2
    have g2 : run.auth = [] := g2
    obtain ⟨k, e1, _, e2⟩ := hrun.sent
    have hch := offered_unique hrun.offered hoff
    rw [e2 rfl, List.take_length, hch, k3] at e1
    have hw : cwire' = run.cwire := List.append_cancel_left e1
    rw [g2] at g1
    obtain ⟨ct, tag, rest, _, f1, _⟩ := g1
    obtain ⟨ct', tag', rest', _, f2, _⟩ := k2
    have := congrArg (List.take 5) (f2.symm.trans (hw.trans f1))
    revert this
    simp only [List.append_assoc]
    rw [List.take_left' (by simp [Tls13.protectedHeader, beBytes_length]), List.take_left' (by simp [Tls13.protectedHeader, beBytes_length]), finished_length]
    cases run.x.t <;> decide +kernel

end ATLS
