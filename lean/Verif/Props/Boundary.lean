import Verif.Props.ReasonExample
import Verif.Props.Instances
/-
C127: whether something may follow the Finished message in its record.
-/
namespace ATLS
open ATLS.Model ATLS.Spec FlowProof PairProof

/-- C127 in full: RFC 8446 section 5.1: "Implementations MUST verify that all messages immediately preceding a key change align with a record boundary; if
not, then they MUST terminate the connection". When a server hands out a stream to a client that is conforming except that `rest` follows the Finished
message in its record, then `rest` is empty. -/
def C127_statement : Prop :=
  ∀ (env : ServerEnv) (reads : List Bytes) (r : Exchange) (rng : Rng) (context : Option Bytes) (auth : List Bytes) (rest : Bytes) (records incoming : List Bytes)
    (s : TlsStream), env.config.prngType = .urandom → env.config.cert.raw.length + 200 ≤ 2 ^ 24 → Conforming env reads r rng context auth rest records →
    Tls13.Delivers 4096 (r.chRec :: records) incoming → (ServerConnection.accept env reads ⟨incoming, [], []⟩).1 = .ok s → rest = []

/-- C127: the server does not look at what follows the Finished message: for all bytes `rest` (up to 3000) there is a client that sends them and for which
it hands out a stream, with the same application traffic keys as if they were not there. -/
theorem C127_ignored (rest : Bytes) (hrest : rest.length ≤ 3000) : ∃ (env : ServerEnv) (reads : List Bytes) (r : Exchange) (rng : Rng) (context : Option Bytes)
    (auth records : List Bytes) (s : TlsStream) (p : RecordPayloadProtection), env.config.prngType = .urandom ∧ env.config.cert.raw.length + 200 ≤ 2 ^ 24 ∧
    Conforming env reads r rng context auth rest records ∧ Tls13.Delivers 4096 (r.chRec :: records) (r.chRec :: records) ∧
    (ServerConnection.accept env reads ⟨r.chRec :: records, [], []⟩).1 = .ok s ∧ s.protection = some p ∧
    RecProof.wKey p = r.x.appKey r.transcript .server ∧ RecProof.rKey p = r.x.appKey r.transcript .client := by
  obtain ⟨⟨kc, ks, q, r, rng, auth, ws, cws, R⟩, _⟩ := example_runs
  have size : (Spec.X509.certificate ownTbs ownR ownS).length + 200 ≤ 2 ^ 24 := by decide +kernel
  have hauth : auth = [] := R.client.proof
  subst hauth
  obtain ⟨fin, hfin⟩ : ∃ fin, fin = r.x.sess.finished .client (r.transcript ++ ([] : List Bytes).flatten) := ⟨_, rfl⟩
  have hfl : fin.length ≤ 100 := by
    rw [hfin, RfcProof.finished_length]
    cases r.x.t <;> decide
  obtain ⟨w, hw, hwl⟩ := ReasonProof.protects (x := r.x) R.ok .client 0 22#8 (fin ++ rest) (by rw [List.length_append]; omega)
  have hc : Conforming { exampleServer none (some (ascii "anothertls.local")) with nonces := [ks] } [zeros 100, oneRead, zeros 100] r rng (q.contextOf _) [] rest [w] :=
    ⟨R.client.hello, R.client.answered, R.client.drawn, R.client.flight, R.client.proof, by
      rw [← hfin]
      exact .cons 0 _ _ _ _ hw (.nil 1)⟩
  have hd : Tls13.Delivers 4096 (r.chRec :: [w]) (r.chRec :: [w]) := by
    refine Tls13.delivers_single ?_
    intro a ha
    simp only [List.mem_cons, List.not_mem_nil, or_false] at ha
    rcases ha with rfl | rfl
    · exact R.fromClient _ (by simp)
    · rw [hwl, List.length_append]
      omega
  obtain ⟨s, h, swire, p, g1, _, _, g4, _, _, g7, g8⟩ := C75_server_completes _ _ r rng _ [] rest [w] [] _ rfl size hc (by simp) (by simpa using hd)
  exact ⟨_, _, r, rng, _, [], [w], s, p, rfl, size, hc, hd, by rw [g1], g4, g7, g8⟩

/-- C127 is false: a byte after the Finished message is taken. -/
theorem C127_false : ¬ C127_statement := by
  intro hst
  obtain ⟨env, reads, r, rng, context, auth, records, s, p, h1, h2, h3, h4, h5, _⟩ := C127_ignored [7#8] (by simp)
  have := hst _ _ _ _ _ _ _ _ _ _ h1 h2 h3 h4 h5
  cases this

/-- C127, the part that holds: when `accept` hands out a stream, the record with the Finished message was the last one taken with the client's handshake
key and starts with the Finished message, so what follows the message in it came from the client; and the keys of the stream do not depend on it.
Missing: that nothing follows (`C127_false`). -/
theorem C127_authentic_partial (env : ServerEnv) (reads : List Bytes) (sock : Socket) (s : TlsStream) (h : ServerHandshake)
    (hc : env.config.cert.raw.length < 2 ^ 24) (ha : ServerConnection.accept env reads sock = (.ok s, h)) :
    ∃ (r : Exchange) (context : Option Bytes) (auth : List Bytes) (rest tail recv : Bytes) (p : RecordPayloadProtection),
      sock.incoming.flatten = recv ++ tail ++ s.stream.incoming.flatten ∧
      r.Received (auth ++ [r.x.sess.finished .client (r.transcript ++ auth.flatten) ++ rest]) recv ∧ ClientAuth env r.x context r.transcript auth ∧
      s.protection = some p ∧ RecProof.wKey p = r.x.appKey r.transcript .server ∧ RecProof.rKey p = r.x.appKey r.transcript .client := by
  obtain ⟨r, context, auth, fin, tail, hA⟩ := C42_server_accepts env reads sock s h hc ha
  obtain ⟨rest, hf⟩ := hA.finished
  obtain ⟨recv, h1, h2⟩ := hA.received
  obtain ⟨p, p1, _, p2, p3⟩ := hA.keys
  exact ⟨r, context, auth, rest, tail, recv, p, h1, by rw [← hf]; exact h2, hA.authenticated, p1, p2, p3⟩

/-- Its hypotheses are met. -/
example : ∃ (env : ServerEnv) (reads : List Bytes) (sock : Socket) (s : TlsStream) (h : ServerHandshake), env.config.cert.raw.length < 2 ^ 24 ∧
    ServerConnection.accept env reads sock = (.ok s, h) := by
  obtain ⟨env, reads, sock, s, h, g, hc, _⟩ := server_example true
  exact ⟨env, reads, sock, s, h, hc, g⟩

end ATLS
