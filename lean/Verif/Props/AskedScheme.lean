import Verif.Props.SecondRequest
import Verif.Spec.AskedScheme
/-
C125: whether the client signs with an algorithm the server asked for.
-/
namespace ATLS
open ATLS.Model ATLS.Spec FlowProof RfcProof

/-- C125 in full: when the client completes the handshake with a server that follows RFC 8446 and asked for a certificate with one of `schemes`, then in
every flight that explains what it sent after its ClientHello, CertificateVerify names one of `schemes`. -/
def C125_statement : Prop :=
  ∀ (env : ClientEnv) (reads : List Bytes) (n : Int) (ch sid shRec context cwire : Bytes) (schemes : List Nat) (v : Tls13.Server) (session : Tls13.Session)
    (records incoming flight : List Bytes) (s : TlsStream),
    Offered env reads n ch → v.Follows ch sid (publicShare n) env.now → v.Sends ch sid (publicShare n) shRec records →
    session = v.session ch sid (publicShare n) → v.requests = [Tls13.certificateRequest context schemes] →
    Tls13.Pieces 2048 [] (shRec :: records) incoming → (ClientConnection.connect env reads ⟨incoming, [], []⟩).1 = .ok s →
    s.stream.written = Tls13.plainRecord 22#8 ch ++ cwire → Tls13.Sent v.suite.protect (session.key .client) (session.iv .client) 0 flight cwire →
    Tls13.SignsAsAsked schemes flight

/-- C125: the client does not look at the algorithms it is asked for: for every list of up to 400 of them there is a server that follows RFC 8446, asks
for these, and to which the client sends its certificate and a signature with ecdsa_secp256r1_sha256. -/
theorem C125_ignored (schemes : List Nat) (hlen : schemes.length ≤ 400) : ∃ (env : ClientEnv) (reads : List Bytes) (n : Int) (ch sid shRec cwire cm signature fin : Bytes)
    (v : Tls13.Server) (session : Tls13.Session) (records : List Bytes) (s : TlsStream),
    Offered env reads n ch ∧ v.Follows ch sid (publicShare n) env.now ∧ v.Sends ch sid (publicShare n) shRec records ∧
    session = v.session ch sid (publicShare n) ∧ v.requests = [Tls13.certificateRequest (zeros 32) schemes] ∧
    Tls13.Pieces 2048 [] (shRec :: records) (shRec :: records) ∧ (ClientConnection.connect env reads ⟨shRec :: records, [], []⟩).1 = .ok s ∧
    s.stream.written = Tls13.plainRecord 22#8 ch ++ cwire ∧ Tls13.Sent v.suite.protect (session.key .client) (session.iv .client) 0
      [cm, Tls13.handshakeMessage 15#8 (Tls13.certificateVerifyMessage 0x0403 signature), fin] cwire ∧
    (shRec :: records).flatten.length < 2 ^ 24 ∧ (∀ c, env.config.clientCert = some c → c.raw.length < 2 ^ 24) ∧
    ∀ a, env.config.serverName = some a → a.length < 2 ^ 24 := by
  obtain ⟨request, hrequest⟩ : ∃ request, request = Tls13.certificateRequest (zeros 32) schemes := ⟨_, rfl⟩
  have hl : (schemes.map (beBytes 2)).flatten.length = schemes.length * 2 := by
    rw [List.length_flatten, List.map_map, List.map_congr_left (g := fun _ => 2) (by intro a _; simp [beBytes_length])]
    simp
  have hq : Tls13.IsCertificateRequest request ∧ request.length ≤ 900 := by
    rw [hrequest]
    refine ⟨C76_request _ _ (by decide) (by omega), ?_⟩
    simp only [Tls13.certificateRequest, List.length_append, beBytes_length, hl, zeros, List.length_replicate]
    omega
  obtain ⟨r, s, shRec, records, h1, h2, h3, hin⟩ := server_exists_repeating [request] (by simpa using hq) (by simp) exampleOffer offer_short (zeros 32) (by simp [zeros])
  obtain ⟨v, hv⟩ : ∃ v, v = rfcServer [request] r s := ⟨_, rfl⟩
  have hreq : v.requests = [request] := by rw [hv]; rfl
  rw [← hv] at h1 h2
  have h1 := (Tls13.Server.follows_iff _ _ _ _ _).2 ⟨h1, by rw [hreq]; simp⟩
  obtain ⟨messages, hm⟩ : ∃ messages, messages = v.transcript exampleOffer (zeros 32) (publicShare 256) := ⟨_, rfl⟩
  obtain ⟨session, hs⟩ : ∃ session, session = v.session exampleOffer (zeros 32) (publicShare 256) := ⟨_, rfl⟩
  obtain ⟨kc, hk⟩ := PairProof.signs_of (key := ownKey) rfl (by decide +kernel) (Tls13.verifyContent .client (session.hash.H (messages ++
    Tls13.ownCertificate (Tls13.requestContext request) (some (Spec.X509.certificate ownTbs ownR ownS)))))
  obtain ⟨env, henv⟩ : ∃ env : ClientEnv, env = { exampleClient (some (ascii "anothertls.local")) with nonces := [kc] } := ⟨_, rfl⟩
  have hnow : env.now = june2023 := by rw [henv]; rfl
  have hcc : ∃ c, env.config.clientCert = some c ∧ c.raw = Spec.X509.certificate ownTbs ownR ownS := by rw [henv]; exact ⟨_, rfl, rfl⟩
  obtain ⟨c, hc1, hc2⟩ := hcc
  obtain ⟨w1, w2, w3, w4, _, _, _⟩ := example_handled env hnow false r s records (by simp)
  obtain ⟨str, h, auth, cwire, g1, g2, g3, g4⟩ := instance_of C82_client_partial env (name := ascii "anothertls.local") (by decide +kernel) (by rw [henv]; rfl) v session messages shRec records hs hm
    (by rw [hnow]; exact h1) h2 (by
      intro cert hcert
      rw [hc1] at hcert
      obtain rfl := Option.some.inj hcert
      refine ⟨by rw [hc2]; decide +kernel, ownKey, by rw [henv]; rfl, rfl, by decide +kernel, ?_⟩
      intro q hr
      rw [hreq, List.mem_singleton] at hr
      rw [hr, hc2, henv]
      exact hk) (by
      rw [hv]
      exact ⟨w1, w2, w3, w4, fun _ => by rw [hc1]; simp, fun h => (by cases h), fun h => (by cases h)⟩) h3
  rw [hreq] at g2
  obtain ⟨cm, _, g2⟩ := g2
  rw [if_neg (by rw [hc1]; simp)] at g2
  obtain ⟨key, r', s', _, _, g2⟩ := g2
  rw [g2] at g3
  refine ⟨env, [zeros 100, zeros 100, zeros 100], 256, exampleOffer, zeros 32, shRec, cwire, cm, _, _, v, session, records, str, ?_, by rw [hnow]; exact h1, h2, hs,
    by rw [hreq, hrequest], by simpa using h3, by rw [g1], g4, g3, hin, ?_, ?_⟩
  · rw [henv]
    exact ⟨_, _, _, zeros 32, zeros 32, example_between.1, rfl, rfl, by simp [zeros], by simp [zeros], by norm_num, by norm_num, rfl⟩
  · intro c' hc'
    rw [hc1] at hc'
    obtain rfl := Option.some.inj hc'
    rw [hc2]
    decide +kernel
  · intro a ha
    rw [henv] at ha
    obtain rfl := Option.some.inj ha
    decide +kernel

/-- C125 is false: a server that asked for rsa_pss_rsae_sha256 only gets a signature with ecdsa_secp256r1_sha256. -/
theorem C125_false : ¬ C125_statement := by
  intro hst
  obtain ⟨env, reads, n, ch, sid, shRec, cwire, cm, sig, fin, v, session, records, s, h1, h2, h3, h4, h5, h6, h7, h8, h9, _⟩ := C125_ignored [0x0804] (by simp)
  have := hst _ _ _ _ _ _ _ _ _ _ _ _ _ _ _ h1 h2 h3 h4 h5 h6 h7 h8 h9 0x0403 sig (by norm_num) (by simp)
  simp at this

/-- C125, the part that holds: when `connect` hands out a stream, every CertificateVerify message (type 15) it sent names ecdsa_secp256r1_sha256, so the
claim holds with every server that asks for this algorithm among others. Missing: that the client does not sign for servers that do not ask for it
(`C125_false`). -/
theorem C125_fixed_partial (env : ClientEnv) (reads : List Bytes) (sock : Socket) (s : TlsStream) (h : Option ClientHandshake)
    (hcl : ∀ c, env.config.clientCert = some c → c.raw.length < 2 ^ 24) (hn : ∀ n, env.config.serverName = some n → n.length < 2 ^ 24)
    (hin : sock.incoming.flatten.length < 2 ^ 24) (hw : ClientConnection.connect env reads sock = (.ok s, h)) :
    ∃ r : ClientRun, ClientCompleted env reads sock s r ∧ (∀ m ∈ r.flight, m.head? = some 15#8 → ∃ signature,
      m = Tls13.handshakeMessage 15#8 (Tls13.certificateVerifyMessage 0x0403 signature)) ∧
      ∀ schemes, 0x0403 ∈ schemes → Tls13.SignsAsAsked schemes r.flight := by
  obtain ⟨r, hc⟩ := C45_client_connects env reads sock s h hcl hn hin hw
  have key : ∀ m ∈ r.flight, m.head? = some 15#8 → ∃ signature, m = Tls13.handshakeMessage 15#8 (Tls13.certificateVerifyMessage 0x0403 signature) := by
    have ha := hc.answer
    intro m hm h15
    rcases List.mem_append.1 hm with hm | hm
    · rcases hq : r.requests.getLast? with _ | b
      · rw [hq] at ha
        rw [show r.auth = [] from ha] at hm
        cases hm
      rw [hq] at ha
      obtain ⟨context, extensions, rest, a1, a2, a3⟩ := ha
      rcases hcert : env.config.clientCert with _ | cert
      · rw [hcert] at a3
        rw [show r.auth = _ from a3, List.mem_singleton] at hm
        rw [hm] at h15
        simp [Tls13.handshakeMessage] at h15
      · rw [hcert] at a3
        obtain ⟨key, sig, cm, der, _, b2, _, _, b5⟩ := a3
        rw [b5] at hm
        simp only [List.mem_cons, List.not_mem_nil, or_false] at hm
        rcases hm with rfl | rfl
        · rw [b2] at h15
          simp [Tls13.handshakeMessage] at h15
        · exact ⟨der, rfl⟩
    · rw [List.mem_singleton] at hm
      rw [hm] at h15
      simp [Tls13.Session.finished, Tls13.handshakeMessage] at h15
  refine ⟨r, hc, key, ?_⟩
  intro schemes hs scheme signature hlt hm
  obtain ⟨der, e⟩ := key _ hm (by simp [Tls13.handshakeMessage])
  have e1 := congrArg (fun l => (l.drop 4).take 2) e
  have e2 : ∀ (k : Nat) (x : Bytes), ((Tls13.handshakeMessage 15#8 (Tls13.certificateVerifyMessage k x)).drop 4).take 2 = beBytes 2 k := by
    intro k x
    simp [Tls13.handshakeMessage, Tls13.certificateVerifyMessage, beBytes]
  simp only [e2] at e1
  have e3 := congrArg beNat e1
  rw [beNat_beBytes, beNat_beBytes] at e3
  have : scheme = 0x0403 := by
    norm_num at e3 hlt
    omega
  rw [this]
  exact hs

/-- Its hypotheses are met, with a server that asks for two algorithms. -/
example : ∃ (env : ClientEnv) (reads : List Bytes) (sock : Socket) (s : TlsStream) (h : Option ClientHandshake) (v : Tls13.Server),
    v.requests = [Tls13.certificateRequest (zeros 32) [0x0804, 0x0403]] ∧
    (∀ c, env.config.clientCert = some c → c.raw.length < 2 ^ 24) ∧ (∀ n, env.config.serverName = some n → n.length < 2 ^ 24) ∧
    sock.incoming.flatten.length < 2 ^ 24 ∧ ClientConnection.connect env reads sock = (.ok s, h) := by
  obtain ⟨env, reads, n, ch, sid, shRec, cwire, cm, sig, fin, v, session, records, s, _, _, _, _, h5, _, h7, _, _, h10, h11, h12⟩ := C125_ignored [0x0804, 0x0403] (by simp)
  exact ⟨env, reads, ⟨shRec :: records, [], []⟩, s, _, v, h5, h11, h12, h10, Prod.ext h7 rfl⟩

end ATLS
