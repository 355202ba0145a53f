import Verif.Props.Transport
import Verif.Props.ClientAuth
import Verif.Props.Answer
import Verif.Props.Channel
import Verif.Props.ClientTrust
import Verif.Props.Alerts
import Verif.Props.ClientAlerts
import Verif.Props.Delivery
import Verif.Props.FilesExample
import Verif.Props.Crash
/-
Concrete cases for the theorems about whole handshakes and files that have no example next to them: the completed handshakes of `server_example`
and `client_example` (the certificate and key of the repository), runs that fail, and the files of the repository. Each example applies the
theorem to the case, so the case meets all of its hypotheses.
-/
namespace ATLS
open ATLS.Model ATLS.Spec FlowProof PairProof RecProof

/-- C42, C71, C72, C85, C89: a server that completes a handshake, with or without client authentication. -/
example (authenticated : Bool) : ∃ (env : ServerEnv) (reads : List Bytes) (sock : Socket) (s : TlsStream), ∃ r context auth fin tail, Accepted env reads sock s r context auth fin tail := by
  obtain ⟨env, reads, sock, s, h, g, hc, _⟩ := server_example authenticated
  have := C71_server_flight env reads sock s h hc g
  have := C72_server_keys env reads sock s h hc g
  have := C85_server env reads sock s h hc g
  have := C89_after_accept env reads sock s h hc g
  exact ⟨env, reads, sock, s, C42_server_accepts env reads sock s h hc g⟩

/-- C43: with client authentication. -/
example : ∃ (env : ServerEnv) (ca : Certificate) (context : Option Bytes) (m raw : Bytes) (x : Model.X509), CertificateShown env ca context m raw x := by
  obtain ⟨env, reads, sock, s, h, g, hc, ha, _⟩ := server_example true
  obtain ⟨ca, hca⟩ := Option.isSome_iff_exists.1 ha
  obtain ⟨r, context, m1, m2, fin, tail, raw, x, _, hs, _⟩ := C43_client_auth_partial env reads sock s h ca hc hca g
  exact ⟨env, ca, context, m1, raw, x, hs⟩

/-- C58: the log of a server that completes a handshake has the lines the theorem speaks about. -/
example : ∃ (env : ServerEnv) (reads : List Bytes) (sock : Socket) (chunk random : Bytes), chunk ∈ (ServerConnection.accept env reads sock).2.logged ∧ Chunk random chunk := by
  obtain ⟨⟨env, reads, sock, s, h, g, hl⟩, _⟩ := C78_example
  obtain ⟨chunk, hm⟩ := List.exists_mem_of_length_pos (l := h.logged) (by omega)
  have hm' : chunk ∈ (ServerConnection.accept env reads sock).2.logged := by rw [g]; exact hm
  obtain ⟨random, hr⟩ := C58_server_lines env reads sock chunk hm'
  exact ⟨env, reads, sock, chunk, random, hm', hr⟩

/-- C44, C45, C73, C74, C83, C85, C87: a client that completes a handshake with a server that asks for its certificate. -/
example : ∃ (env : ClientEnv) (reads : List Bytes) (sock : Socket) (s : TlsStream) (r : ClientRun), ClientCompleted env reads sock s r := by
  obtain ⟨env, reads, sock, s, h, g, hc, hn, hi, _⟩ := client_example
  have := C44_client_connect env reads sock s h g
  have := C74_client_keys env reads sock s h hc hn hi g
  have := C83_peer_partial env reads sock s h hc hn hi g
  have := C85_client env reads sock s h hc hn hi g
  have := C87_every_run_partial env reads sock s h hc hn hi g
  obtain ⟨r, hr⟩ := C45_client_connects env reads sock s h hc hn hi g
  exact ⟨env, reads, sock, s, r, hr⟩

/-- C58: the log of a client. -/
example : ∃ (env : ClientEnv) (reads : List Bytes) (sock : Socket) (h : ClientHandshake) (chunk random : Bytes), (ClientConnection.connect env reads sock).2 = some h ∧
    chunk ∈ h.logged ∧ Chunk random chunk := by
  obtain ⟨_, ⟨env, reads, sock, s, h, g, hl⟩⟩ := C78_example
  obtain ⟨chunk, hm⟩ := List.exists_mem_of_length_pos (l := h.logged) (by omega)
  have hg : (ClientConnection.connect env reads sock).2 = some h := by rw [g]
  obtain ⟨random, hr⟩ := C58_client_lines env reads sock h hg chunk hm
  exact ⟨env, reads, sock, h, chunk, random, hg, hm, hr⟩

/-- C49: a handshake that fails, for every server: the client starts with a change_cipher_spec record, and the alert is unexpected_message. -/
example (env : ServerEnv) (reads : List Bytes) : ∃ h1 w, AlertWritten h1 .unexpectedMessage w ∧ (ServerConnection.accept env reads ⟨[[20, 3, 3, 0, 1, 1]], [], []⟩).2.stream.stream.written = w := by
  obtain ⟨_, _, h3⟩ := C49_server env (ServerHandshake.new env (TlsStream.new ⟨[[20, 3, 3, 0, 1, 1]], [], []⟩) reads) _ .unexpectedMessage rfl
  obtain ⟨w, h4, _⟩ := h3 (by unfold NotAnswered; decide) rfl
  obtain ⟨w', h5, h6, _⟩ := h3 (by unfold NotAnswered; decide) rfl
  exact ⟨_, w', h5, h6⟩

/-- C49: a record that is an alert. -/
example (env : ServerEnv) (h : ServerHandshake) : ServerHandshake.handleRecord env ⟨.alert, 771, 2, [21, 3, 3, 0, 2], [2, 40]⟩ h = (.err (.gotAlert 40), h) :=
  (C49_received env h ⟨.alert, 771, 2, [21, 3, 3, 0, 2], [2, 40]⟩ 2 40 []).1 rfl rfl

example (env : ClientEnv) (h : ClientHandshake) : ClientHandshake.handleRecord env ⟨.alert, 771, 2, [21, 3, 3, 0, 2], [2, 40]⟩ h = (.err (.gotAlert 40), h) :=
  (C49_client_received env h ⟨.alert, 771, 2, [21, 3, 3, 0, 2], [2, 40]⟩ 2 40 []).1 rfl rfl

/-- What the example client offers. -/
theorem example_offered (name : Option Bytes) : ∃ ch, Offered (exampleClient name) [zeros 100, zeros 100, zeros 100] 256 ch :=
  ⟨_, _, _, _, zeros 32, zeros 32, example_between.1, rfl, rfl, by simp [zeros], by simp [zeros], by norm_num, by norm_num, rfl⟩

/-- C49, C76, C91: the example client sends its hello; with nothing to read it fails, and it crashes on five bytes. -/
example (name : Option Bytes) : ∃ ch h, ClientConnection.connect (exampleClient name) [zeros 100, zeros 100, zeros 100] ⟨[], [], []⟩ = (.err .brokenPipe, some h) ∧
    h.stream.stream.written = Tls13.plainRecord 22#8 ch ∧
    (ClientConnection.connect (exampleClient name) [zeros 100, zeros 100, zeros 100] ⟨[[22, 3, 3, 0, 3]], [], []⟩).1 = .panic := by
  obtain ⟨ch, ho⟩ := example_offered name
  obtain ⟨g, rng, random, _, hs⟩ := ClientProof.hello_of ho
  have h1 := C49_client_broken (exampleClient name) _ _ hs (by simp [ClientProof.first]) rfl
  have h2 := C49_client (exampleClient name) _ _ _ h1
  obtain ⟨h, h3, h4⟩ := C76_client_hello_first (exampleClient name) _ 256 ch ho
  exact ⟨ch, h, h3, h4, C91_connect_crashes _ _ 256 ch ho []⟩

/-- C76: the request for a certificate that is signed with ECDSA. -/
example := C76_request (zeros 32) [0x0403] (by decide) (by decide)

/-- C75: the example server answers the hello of the example client before it reads anything else. -/
example : ∃ env reads chRec h, ServerConnection.accept env reads ⟨[chRec], [], []⟩ = (.err .brokenPipe, h) ∧ h.stream.stream.written ≠ [] := by
  obtain ⟨-, ⟨ca, kc, ks, q, r, rng, auth, ws, cws, R⟩⟩ := example_runs
  obtain ⟨h, swire, h1, _, h2⟩ := C75_server_flight_first _ _ r rng _ rfl (by show (Spec.X509.certificate ownTbs ownR ownS).length + 200 ≤ 2 ^ 24; decide +kernel)
    R.client.hello R.client.answered R.client.drawn R.client.flight (R.fromClient r.chRec (by simp))
  exact ⟨_, _, _, h, h1, by rw [h2]; simp [Tls13.plainRecord]⟩

/-- C69: the CertificateVerify message of an authenticated client. -/
example : ∃ (c : Certificate) (x : Model.X509) (ts : TsHash) (body : Bytes), c.x509 = some x ∧ Verified c .client ts body := by
  obtain ⟨-, ⟨ca, kc, ks, q, r, rng, auth, ws, cws, R⟩⟩ := example_runs
  obtain ⟨m1, m2, cert, _, ⟨_, _, _, _, x, _, _, _, _, _, _, _, hx, _⟩, hs, _, _, hv⟩ := R.client.proof
  have := C69_sound cert x .client _ _ hx hv
  exact ⟨cert, x, _, _, hx, hv⟩

/-- C46: a ClientHello-typed record that arrives in two parts. -/
example (env : ServerEnv) (rng : List Bytes) := C46_server_split env rng [22, 3, 3, 0, 1, 1] [22, 3, 3] [0, 1, 1] []
  ⟨22, [1], by decide, 3, 3, by decide, by decide⟩ rfl (by decide) (by decide) (by decide)

/-- C79, C80: the files of the repository. -/
example : (PrivateKey.fromPem (some serverKey) : Res Unit (Option PrivateKey)) =
    .ok (some ⟨.secp256r1, (0x80677a1fee4eb412764f930d1f6dce3281384612675cf94c0432292217db318c : Nat)⟩) :=
  C79_key_partial serverKey _ _ _ (by norm_num) (fun o h => (Option.some.inj h).symm) (fun p h => by rw [← Option.some.inj h]; decide) serverKey_file

example : (Certificate.fromPem (some serverCert) : Res Unit (Option Certificate)) = .ok (some ⟨Spec.X509.certificate ownTbs ownR ownS, none⟩) := by
  have := C80_x509_partial (ε := Unit) serverCert _ (Spec.X509.certificate ownTbs ownR ownS) serverCert_file rfl
  rw [C80_last (ε := Unit) serverCert _ serverCert_file (by simp)]
  rfl

/-- C80: a file with CRLF line ends. -/
example : ∃ text, ∀ c, (Certificate.fromPem (some text) : Res Unit (Option Certificate)) ≠ .ok (some c) := by
  obtain ⟨text, h⟩ := FilesProof.file_exists ['\r', '\n'] [("CERTIFICATE", [1, 2, 3])] (by simp)
  exact ⟨text, C80_crlf text _ h⟩

/-- C44: a server whose records end in an error. -/
example (env : ServerEnv) (reads : List Bytes) (h' : ServerHandshake) :=
  C44_returned env (ServerHandshake.new env (TlsStream.new ⟨[[20, 3, 3, 0, 1, 1]], [], []⟩) reads) _ _ h' [20, 3, 3, 0, 1, 1] .unexpectedMessage
    (by simp [ServerHandshake.new]) rfl rfl

/-- C38, C39, C41: a hello the server answers. -/
example : ∃ (ch : ClientHello) (rng : Rng) (name : Option Bytes) (sh : ServerHello) (pk : PrivateKey) (rng' : Rng),
    ServerHello.fromClientHello ch rng name = .ok (sh, pk, rng') ∧ sh.cipherSuite ∈ ch.cipherSuites := by
  obtain ⟨-, ⟨ca, kc, ks, q, r, rng, auth, ws, cws, R⟩⟩ := example_runs
  obtain ⟨_, ch, sh, pk, _, _, _, _, _, hf, _⟩ := R.client.answered
  have := C39_versions_partial _ _ _ _ hf
  exact ⟨_, _, _, _, _, _, hf, (C38_choice _ _ _ _ _ _ hf).1⟩

/-- C21, C22: a stream to write to, for every suite with the all-zero key. -/
example : ∃ s p, Writable .chacha20Poly1305Sha256 s p :=
  ⟨⟨⟨[], [], []⟩, some (zeroProt true), []⟩, zeroProt true, rfl, rfl, ⟨by decide, by decide⟩, by decide, rfl⟩

/-- C62: a record that opens. -/
example : ∃ (r : Record) (p' : RecordPayloadProtection), r.header.length = 5 ∧ r.fraqment.length < 2 ^ 16 ∧
    (zeroProt true).decrypt r = (.ok (.applicationData, [1, 2, 3]), p') := by
  obtain ⟨r, hr⟩ : ∃ r : Record, r = ⟨.applicationData, 771, 20, [23, 3, 3, 0, 20],
    ((({ TlsStream.new ⟨[], [], []⟩ with protection := some (zeroProt false) }).tlsWrite [1, 2, 3]).2.stream.written).drop 5⟩ := ⟨_, rfl⟩
  have h1 : ((zeroProt true).decrypt r).1 = .ok (.applicationData, [1, 2, 3]) := by rw [hr]; decide +kernel
  exact ⟨r, _, by rw [hr]; rfl, by rw [hr]; decide +kernel, Prod.ext h1 rfl⟩

/-- C52: a validity period with both ends. -/
example := C52_interval ⟨some ⟨2023, 1, 1, 0, 0, 0⟩, some ⟨2024, 1, 1, 0, 0, 0⟩⟩ june2023 (some 1672531200) (some 1704067200)
  (fun t ht => ⟨_, by rw [← Option.some.inj ht]; decide, rfl⟩) (by simp) (fun t ht => ⟨_, by rw [← Option.some.inj ht]; decide, rfl⟩) (by simp)

end ATLS
