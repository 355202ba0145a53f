import Verif.Props.RfcServerExample
import Verif.Spec.EncryptedExtensions
/-
C123: what the client makes of the server's EncryptedExtensions.
-/
namespace ATLS
open ATLS.Model ATLS.Spec FlowProof RfcProof

/-- C123 in full: when the client completes the handshake with a server, otherwise following RFC 8446, its EncryptedExtensions are permitted. -/
def C123_statement : Prop :=
  ∀ (env : ClientEnv) (reads : List Bytes) (n : Int) (ch sid shRec : Bytes) (v : Tls13.Server) (records incoming : List Bytes) (s : TlsStream),
    Offered env reads n ch → v.Follows ch sid (publicShare n) env.now → v.Sends ch sid (publicShare n) shRec records →
    Tls13.Pieces 2048 [] (shRec :: records) incoming → (ClientConnection.connect env reads ⟨incoming, [], []⟩).1 = .ok s → Tls13.PermittedExtensions v.extensions

/-- C123: the client does not look at them: for all contents (of up to 900 bytes) of the message, there is a server, otherwise following RFC 8446, that
sends them and with which the client completes the handshake, whether or not it asks for a certificate. -/
theorem C123_ignored (ext : Bytes) (hext : ext.length ≤ 900) (ask : Bool) : ∃ (env : ClientEnv) (reads : List Bytes) (n : Int) (ch sid shRec : Bytes) (v : Tls13.Server)
    (records : List Bytes) (s : TlsStream), v.extensions = ext ∧ (v.requests = [] ↔ ask = false) ∧ Offered env reads n ch ∧ v.Follows ch sid (publicShare n) env.now ∧
    v.Sends ch sid (publicShare n) shRec records ∧ Tls13.Pieces 2048 [] (shRec :: records) (shRec :: records) ∧
    (ClientConnection.connect env reads ⟨shRec :: records, [], []⟩).1 = .ok s ∧ (shRec :: records).flatten.length < 2 ^ 24 ∧
    (∀ c, env.config.clientCert = some c → c.raw.length < 2 ^ 24) ∧ ∀ a, env.config.serverName = some a → a.length < 2 ^ 24 := by
  obtain ⟨r, s, shRec, records, h1, h2, h3, hin⟩ := server_exists_ext ext hext ask exampleOffer offer_short (zeros 32) (by simp [zeros])
  obtain ⟨v, hv⟩ : ∃ v, v = extServer ext ask r s := ⟨_, rfl⟩
  have hreq : v.requests = exampleRequests ask := by rw [hv]; rfl
  obtain ⟨messages, hm⟩ : ∃ messages, messages = v.transcript exampleOffer (zeros 32) (publicShare 256) := ⟨_, rfl⟩
  obtain ⟨session, hs⟩ : ∃ session, session = v.session exampleOffer (zeros 32) (publicShare 256) := ⟨_, rfl⟩
  obtain ⟨kc, hk⟩ := PairProof.signs_of (key := ownKey) rfl (by decide +kernel) (Tls13.verifyContent .client (session.hash.H (messages ++
    Tls13.ownCertificate (Tls13.requestContext (Tls13.certificateRequest (zeros 32) [0x0403])) (some (Spec.X509.certificate ownTbs ownR ownS)))))
  obtain ⟨w1, w2, w3, w4, w5, w6, w7⟩ := example_handled { exampleClient (some (ascii "anothertls.local")) with nonces := [kc] } rfl ask r s records (by simp [exampleClient])
  obtain ⟨str, h, _, _, g, _⟩ := instance_of C82_client_partial { exampleClient (some (ascii "anothertls.local")) with nonces := [kc] } (name := ascii "anothertls.local") (by decide +kernel) rfl v session messages shRec records hs hm
    (by rw [hv]; exact h1) (by rw [hv]; exact h2) (by
      intro cert hcert
      obtain rfl := Option.some.inj hcert
      refine ⟨by show (Spec.X509.certificate ownTbs ownR ownS).length ≤ 16000; decide +kernel, ownKey, rfl, rfl, by decide +kernel, ?_⟩
      intro request hr
      rw [hreq] at hr
      cases ask with
      | false => simp [exampleRequests] at hr
      | true =>
        rw [List.mem_singleton.1 hr]
        exact hk) (by rw [hv]; exact ⟨w1, w2, w3, w4, w5, w6, w7⟩) h3
  refine ⟨{ exampleClient (some (ascii "anothertls.local")) with nonces := [kc] }, [zeros 100, zeros 100, zeros 100], 256, exampleOffer, zeros 32, shRec, v, records, str, by rw [hv]; rfl, ?_,
    ⟨_, _, _, zeros 32, zeros 32, example_between.1, rfl, rfl, by simp [zeros], by simp [zeros], by norm_num, by norm_num, rfl⟩, by rw [hv]; exact h1, by rw [hv]; exact h2,
    by simpa using h3, by rw [g], hin, ?_, ?_⟩
  · rw [hreq]
    cases ask <;> simp [exampleRequests]
  · intro c hc
    obtain rfl := Option.some.inj hc
    show (Spec.X509.certificate ownTbs ownR ownS).length < 2 ^ 24
    decide +kernel
  · intro a ha
    obtain rfl := Option.some.inj ha
    decide +kernel

/-- C123 is false: a single byte, which is no list of extensions, is taken. -/
theorem C123_false : ¬ C123_statement := by
  intro hst
  obtain ⟨env, reads, n, ch, sid, shRec, v, records, s, h1, _, h2, h3, h4, h5, h6, _⟩ := C123_ignored [7#8] (by simp) false
  have := (hst _ _ _ _ _ _ _ _ _ _ h2 h3 h4 h5 h6).length
  rw [h1] at this
  simp at this

/-- Likewise a forbidden extension, a second key share, is taken. -/
example : ∃ (env : ClientEnv) (reads : List Bytes) (n : Int) (ch sid shRec : Bytes) (v : Tls13.Server) (records : List Bytes) (s : TlsStream),
    v.extensions = beBytes 2 4 ++ beBytes 2 51 ++ beBytes 2 0 ∧ v.Follows ch sid (publicShare n) env.now ∧ v.Sends ch sid (publicShare n) shRec records ∧
    (ClientConnection.connect env reads ⟨shRec :: records, [], []⟩).1 = .ok s := by
  obtain ⟨env, reads, n, ch, sid, shRec, v, records, s, h1, _, _, h3, h4, _, h6, _⟩ := C123_ignored (beBytes 2 4 ++ beBytes 2 51 ++ beBytes 2 0) (by decide) true
  exact ⟨env, reads, n, ch, sid, shRec, v, records, s, h1, h3, h4, h6⟩

/-- C123, the part that holds: when `connect` hands out a stream, exactly one EncryptedExtensions message came, first and protected, and it is part of the
transcript the server signed and that both Finished messages cover: nobody else can have changed it. Missing: any check of its contents (`C123_false`). -/
theorem C123_covered_partial (env : ClientEnv) (reads : List Bytes) (sock : Socket) (s : TlsStream) (h : Option ClientHandshake)
    (hcl : ∀ c, env.config.clientCert = some c → c.raw.length < 2 ^ 24) (hn : ∀ n, env.config.serverName = some n → n.length < 2 ^ 24)
    (hin : sock.incoming.flatten.length < 2 ^ 24) (hw : ClientConnection.connect env reads sock = (.ok s, h)) :
    ∃ (r : ClientRun) (ee rest : Bytes), ClientCompleted env reads sock s r ∧ r.contents.flatten = Tls13.handshakeMessage 8#8 ee ++ rest ∧
      ∃ cm cv raw x, r.shown = opening ee r.requests ++ cm ++ cv ∧ PossessionShown .server r.x x (r.x.hellos ++ opening ee r.requests ++ cm) cv ∧
        ServerCertificateShown env cm raw x := by
  obtain ⟨r, hc⟩ := C45_client_connects env reads sock s h hcl hn hin hw
  obtain ⟨ee, cm, cv, raw, x, e1, e2, e3⟩ := hc.shown
  obtain ⟨ignored, e4⟩ := hc.messages
  refine ⟨r, ee, (r.requests.map (Tls13.handshakeMessage 13#8)).flatten ++ cm ++ cv ++ r.x.sess.finished .server (r.x.hellos ++ r.shown) ++ ignored, hc, ?_,
    cm, cv, raw, x, e1, e3, e2⟩
  rw [e4]
  conv_lhs => enter [1, 1]; rw [e1]
  simp only [opening, List.append_assoc]

/-- Its hypotheses are met. -/
example : ∃ (env : ClientEnv) (reads : List Bytes) (sock : Socket) (s : TlsStream) (h : Option ClientHandshake),
    (∀ c, env.config.clientCert = some c → c.raw.length < 2 ^ 24) ∧ (∀ n, env.config.serverName = some n → n.length < 2 ^ 24) ∧
    sock.incoming.flatten.length < 2 ^ 24 ∧ ClientConnection.connect env reads sock = (.ok s, h) := by
  obtain ⟨env, reads, n, ch, sid, shRec, v, records, s, _, _, _, _, _, _, h6, h7, h8, h9⟩ := C123_ignored [0#8, 0#8] (by simp) true
  exact ⟨env, reads, ⟨shRec :: records, [], []⟩, s, _, h8, h9, h7, Prod.ext h6 rfl⟩

end ATLS
