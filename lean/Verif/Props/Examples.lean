import Verif.Props.PairExample
import Verif.Props.KeyLog
/-
Completed handshakes, as concrete cases that meet the hypotheses of the theorems about completed handshakes (C42, C43, C45, C71 to C74, C78): the
server and the client of the library with the certificate and key in the repository, with a key log, with and without client authentication.
-/
namespace ATLS
open ATLS.Model ATLS.Spec FlowProof PairProof

/-- A server that completes a handshake, without client authentication (`false`) and with it (`true`). -/
theorem server_example (authenticated : Bool) : ∃ env reads sock s h, ServerConnection.accept env reads sock = (.ok s, h) ∧
    env.config.cert.raw.length < 2 ^ 24 ∧ env.config.clientCertCa.isSome = authenticated ∧ env.config.keylog.isSome ∧ env.config.serverName.isSome := by
  obtain ⟨⟨kc, ks, q, r, rng, auth, ws, cws, R⟩, ⟨ca, kc', ks', q', r', rng', auth', ws', cws', R'⟩⟩ := example_runs
  have size : (Spec.X509.certificate ownTbs ownR ownS).length + 200 ≤ 2 ^ 24 := by decide +kernel
  have size0 : (Spec.X509.certificate ownTbs ownR ownS).length ≤ 1800 := by decide +kernel
  have size' : (Spec.X509.certificate ownTbs ownR ownS).length < 2 ^ 24 := by omega
  cases authenticated with
  | false =>
    obtain ⟨s, h, _, _, g, _⟩ := C75_server_completes _ _ r rng _ auth [] cws [] _ rfl size R.client (by simp)
      (by rw [List.append_nil]; exact Tls13.delivers_single R.fromClient)
    exact ⟨_, _, _, s, h, g, size', rfl, rfl, rfl⟩
  | true =>
    obtain ⟨s, h, _, _, g, _⟩ := C75_server_completes _ _ r' rng' _ auth' [] cws' [] _ rfl size R'.client (by simp)
      (by rw [List.append_nil]; exact Tls13.delivers_single R'.fromClient)
    exact ⟨_, _, _, s, h, g, size', rfl, rfl, rfl⟩

/-- A client that completes a handshake with a server that asks for its certificate: the certificate is of the size allowed, and so are the name and
the bytes that arrive. -/
theorem client_example : ∃ env reads sock s h, ClientConnection.connect env reads sock = (.ok s, h) ∧
    (∀ c, env.config.clientCert = some c → c.raw.length < 2 ^ 24) ∧ (∀ n, env.config.serverName = some n → n.length < 2 ^ 24) ∧
    sock.incoming.flatten.length < 2 ^ 24 ∧ env.config.clientCert.isSome ∧ env.config.serverName.isSome ∧ env.config.keylog.isSome := by
  obtain ⟨-, ⟨ca, kc, ks, q, r, rng, auth, ws, cws, R⟩⟩ := example_runs
  have size : (Spec.X509.certificate ownTbs ownR ownS).length + 400 ≤ 2 ^ 24 := by decide +kernel
  have size0 : (Spec.X509.certificate ownTbs ownR ownS).length ≤ 1800 := by decide +kernel
  have size' : (Spec.X509.certificate ownTbs ownR ownS).length < 2 ^ 24 := by omega
  obtain ⟨s, h, _, _, g, _⟩ := C76_client_completes _ _ _ r.x r.ch r.sh (Tls13.plainRecord 22#8 r.sh) r.transcript auth (r.ccs :: ws) [] _
    (fun c hc => by rw [← Option.some.inj hc]; exact size) R.server (by simp) (by rw [List.append_nil]; exact (Tls13.delivers_single (R.fromServer size0)).pieces)
  refine ⟨_, _, _, s, h, g, fun c hc => by rw [← Option.some.inj hc]; exact size', fun n hn => by rw [← Option.some.inj hn]; decide +kernel, ?_, rfl, rfl, rfl⟩
  show (Tls13.plainRecord 22#8 r.sh :: r.ccs :: ws).flatten.length < _
  have hc := R.serverCount
  have hs := (R.fromServer size0)
  rw [List.length_flatten]
  have := List.sum_le_card_nsmul ((Tls13.plainRecord 22#8 r.sh :: r.ccs :: ws).map List.length) 2048 (by
    intro n hn
    obtain ⟨m, h3, rfl⟩ := List.mem_map.1 hn
    exact hs m h3)
  rw [List.length_map, smul_eq_mul, List.length_cons, List.length_cons] at this
  omega

/-- C78 is about something: both ends leave a log. -/
theorem C78_example : (∃ env reads sock s h, ServerConnection.accept env reads sock = (.ok s, h) ∧ h.logged.length = 2) ∧
    ∃ env reads sock s h, ClientConnection.connect env reads sock = (.ok s, some h) ∧ h.logged.length = 2 := by
  obtain ⟨env, reads, sock, s, h, g, hc, _, hk, _⟩ := server_example true
  obtain ⟨env', reads', sock', s', h', g', hc', hn', hi', _, _, hk'⟩ := client_example
  refine ⟨⟨env, reads, sock, s, h, g, ?_⟩, ?_⟩
  · obtain ⟨_, _, _, _, _, _, _, hl⟩ := C78_server_log env reads sock s h hc g
    obtain ⟨path, hp⟩ := Option.isSome_iff_exists.1 hk
    obtain ⟨_, _, _, _, _, _, e, _⟩ := hl path hp
    rw [e]; rfl
  · obtain ⟨_, h'', rfl, _, _, hl⟩ := C78_client_log env' reads' sock' s' h' hc' hn' hi' g'
    obtain ⟨path, hp⟩ := Option.isSome_iff_exists.1 hk'
    obtain ⟨_, _, _, _, _, _, e, _⟩ := hl path hp
    exact ⟨env', reads', sock', s', h'', g', by rw [e]; rfl⟩

end ATLS
