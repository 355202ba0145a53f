import Verif.Props.RfcServerExample
/-
C83: whom the client connects to.
-/
namespace ATLS
open ATLS.Model ATLS.Spec FlowProof RfcProof

/-- C83, in full: when `connect` hands out a stream on a connection to a server that follows RFC 8446, the configured server name occurs in the
certificate with which that server proved its identity. (A certificate for a name contains it, as the common name of the subject or as a subject
alternative name, so this is the least that a check of the name would ensure.) It is false: `C83_false`. -/
def C83_statement : Prop :=
  ∀ (env : ClientEnv) (reads : List Bytes) (n : Int) (random sid ch name : Bytes) (v : Tls13.Server) (shRec : Bytes) (records : List Bytes)
    (s : TlsStream) (h : Option ClientHandshake),
    env.config.serverName = some name → Offered env reads n ch → ch = Tls13.handshakeMessage 1#8 (Tls13.clientOffer random sid (publicShare n) (some name)).bytes →
    v.Follows ch sid (publicShare n) env.now → v.Sends ch sid (publicShare n) shRec records →
    ClientConnection.connect env reads ⟨shRec :: records, [], []⟩ = (.ok s, h) → name <:+: v.proof.leaf.der

/-- Whatever server name is configured, the client connects to a server that proves its identity with the certificate of the repository. -/
theorem C83_any_name (name : Bytes) (hname : name.length ≤ 16000) : ∃ (r s : Nat) (shRec : Bytes) (records : List Bytes) (str : TlsStream) (h : _),
    (rfcServer [] r s).Follows (offerFor name) (zeros 32) (publicShare 256) june2023 ∧
    (rfcServer [] r s).Sends (offerFor name) (zeros 32) (publicShare 256) shRec records ∧
    ClientConnection.connect (exampleClient (some name)) [zeros 100, zeros 100, zeros 100] ⟨shRec :: records, [], []⟩ = (.ok str, h) := by
  obtain ⟨r, s, shRec, records, h1, h2, h3, _⟩ := server_exists false (offerFor name)
    (offer_le (by simp [zeros]) (by simp [zeros]) 256 (by intro a ha; cases ha; exact hname))
  obtain ⟨v, hv⟩ : ∃ v, v = rfcServer (exampleRequests false) r s := ⟨_, rfl⟩
  obtain ⟨messages, hm⟩ : ∃ messages, messages = v.transcript (offerFor name) (zeros 32) (publicShare 256) := ⟨_, rfl⟩
  obtain ⟨session, hs⟩ : ∃ session, session = v.session (offerFor name) (zeros 32) (publicShare 256) := ⟨_, rfl⟩
  obtain ⟨str, h, _, _, g, _⟩ := instance_of C82_client_partial (exampleClient (some name)) hname rfl v session messages shRec records hs hm
    (by rw [hv]; exact h1) (by rw [hv]; exact h2) (by
      intro cert hcert
      obtain rfl := Option.some.inj hcert
      refine ⟨by show (Spec.X509.certificate ownTbs ownR ownS).length ≤ 16000; decide +kernel, ownKey, rfl, rfl, by decide +kernel, ?_⟩
      intro request hr
      rw [hv] at hr
      simp [rfcServer, exampleRequests] at hr) (by rw [hv]; exact example_handled _ rfl false r s records (by simp)) h3
  exact ⟨r, s, shRec, records, str, h, h1, h2, g⟩

/-- C83 is false as stated: a client configured for `bank.example` connects to a server with the certificate of `anothertls.local`. -/
theorem C83_false : ¬ C83_statement := by
  intro hC
  obtain ⟨r, s, shRec, records, str, h, h1, h2, h3⟩ := C83_any_name (ascii "bank.example") (by decide +kernel)
  have := hC (exampleClient (some (ascii "bank.example"))) _ 256 (zeros 32) (zeros 32) _ _ _ shRec records str h rfl
    ⟨_, _, _, zeros 32, zeros 32, example_between.1, rfl, rfl, by simp [zeros], by simp [zeros], by norm_num, by norm_num, rfl⟩ rfl h1 h2 h3
  revert this
  show ¬ ascii "bank.example" <:+: Spec.X509.certificate ownTbs ownR ownS
  decide +kernel

/-- What the client does establish about its peer, whatever bytes arrive: it showed a certificate that is valid now, and proved possession of the key
of that certificate by a signature over this handshake. (Missing: that the certificate is for the configured name, and that an authority issued it.) -/
theorem C83_peer_partial (env : ClientEnv) (reads : List Bytes) (sock : Socket) (s : TlsStream) (h : Option ClientHandshake)
    (hcl : ∀ c, env.config.clientCert = some c → c.raw.length < 2 ^ 24) (hn : ∀ n, env.config.serverName = some n → n.length < 2 ^ 24)
    (hin : sock.incoming.flatten.length < 2 ^ 24) (hw : ClientConnection.connect env reads sock = (.ok s, h)) :
    ∃ r, ClientCompleted env reads sock s r ∧ ∃ ee cm cv raw x, r.shown = opening ee r.requests ++ cm ++ cv ∧ ServerCertificateShown env cm raw x ∧
      PossessionShown .server r.x x (r.x.hellos ++ opening ee r.requests ++ cm) cv := by
  obtain ⟨r, hr⟩ := C45_client_connects env reads sock s h hcl hn hin hw
  exact ⟨r, hr, hr.shown⟩

end ATLS
