import Verif.Props.Early
import Verif.Proof.EarlyClient
/-
C47 for the client: application data that the server sends right after its Finished.
-/
namespace ATLS
open ATLS.Model ATLS.Spec FlowProof RecProof

/-- C47 of the client for the arrival patterns `arrive handshake data incoming`: when a conforming server sends its handshake records, of which the last is the
one with its Finished, and then application data (which RFC 8446 section 2 allows before it has the client's Finished), and these records arrive as the reads
`incoming`, then `connect` succeeds and the following `tls_read`s return the data. -/
def C47_client_for (arrive : List Bytes → List Bytes → List Bytes → Prop) : Prop :=
  ∀ (env : ClientEnv) (rng : List Bytes) (n : Int) (x : Params) (ch sh shRec messages : Bytes) (auth init : List Bytes) (fin : Bytes)
    (payloads data incoming : List Bytes) (bufLen : Nat),
    (∀ c, env.config.clientCert = some c → c.raw.length + 400 ≤ 2 ^ 24) → ConformingServer env rng n x ch sh shRec messages auth (init ++ [fin]) →
    (¬ ∃ c, Tls13.IsRecord 20#8 c fin) →
    Tls13.AppData (aead x.c) (x.appKey messages .server).key (x.appKey messages .server).iv 0 payloads data → payloads.length < 2 ^ 63 →
    (∀ m ∈ payloads, m.length ≤ bufLen) → (∀ w ∈ data, w.length ≤ 4096) → arrive (shRec :: (init ++ [fin])) data incoming →
    ∃ s h, ClientConnection.connect env rng ⟨incoming, [], []⟩ = (.ok s, h) ∧ readPayloads bufLen s payloads.length = .ok payloads

/-- C47 of the client in full: the records, handshake and data, are grouped into reads in any way. -/
def C47_client_statement : Prop := C47_client_for fun handshake data incoming => Tls13.Delivers 2048 (handshake ++ data) incoming

/-- C47 of the client when no data arrives in the read that contains the server's Finished. Missing: data in that read (it is lost, `C47_client_lost`) and several
data records in one read (C23). -/
theorem C47_client_partial : C47_client_for fun handshake data incoming => ∃ a, Tls13.Pieces 2048 [] handshake a ∧ incoming = a ++ data := by
  intro env rng n x ch sh shRec messages auth init fin payloads data incoming bufLen hown hc hfin hdata hn hb hw harr
  obtain ⟨_, harr, rfl⟩ := harr
  obtain ⟨s, h, p, _, h1, _, _, h2, _, h4, h5, _, _, h8, hx⟩ := ClientProof.stops_pieces hown hc hfin data harr
  refine ⟨s, h, ?_, ?_⟩
  · exact h1
  · have hseq : (rKey p).sequenceNumber.toNat = 0 := by rw [h8]; rfl
    refine EarlyProof.read_data (cs := x.cs) bufLen payloads data [] s p h4 (by rw [h5]; exact hx.cipher) (by rw [h8]; exact EarlyProof.appKey_sizes _ _ _)
      (by rw [hseq]; omega) ?_ hb hw (by rw [h2]; simp)
    rw [hseq, h8, h5]
    exact hdata

/-- C47 of the client, what happens instead: data in the read of the server's Finished is dropped. The handshake succeeds, and the following `tls_read` goes to the
socket for what comes later; if nothing comes it fails. This holds for every conforming server and every grouping of the records before. -/
theorem C47_client_lost (env : ClientEnv) (rng : List Bytes) (n : Int) (x : Params) (ch sh shRec messages : Bytes) (auth init : List Bytes) (fin : Bytes)
    (payloads data : List Bytes) (pre : List (List Bytes)) (g later : List Bytes)
    (hown : ∀ c, env.config.clientCert = some c → c.raw.length + 400 ≤ 2 ^ 24) (hc : ConformingServer env rng n x ch sh shRec messages auth (init ++ [fin]))
    (hfin : ¬ ∃ c, Tls13.IsRecord 20#8 c fin)
    (hdata : Tls13.AppData (aead x.c) (x.appKey messages .server).key (x.appKey messages .server).iv 0 payloads data)
    (hsplit : pre.flatten ++ g = shRec :: init) (hpre : ∀ g ∈ pre, g ≠ [] ∧ g.flatten.length ≤ 2048) (hg : (g ++ fin :: data).flatten.length ≤ 2048) :
    ∃ s h, ClientConnection.connect env rng ⟨pre.map List.flatten ++ (g ++ fin :: data).flatten :: later, [], []⟩ = (.ok s, h) ∧ s.stream.incoming = later ∧
      (later = [] → ∀ bufLen, (s.tlsRead bufLen).1 = .err .brokenPipe) := by
  obtain ⟨_, _, _, _, _, _, _, _, _, _, _, _, _, _, hx⟩ := ClientProof.stops hown hc hfin (tail := []) [] hsplit hpre (by
    simp only [List.flatten_append, List.flatten_cons, List.flatten_nil, List.length_append, List.length_nil] at hg ⊢
    omega) (by simp)
  obtain ⟨s, h, p, _, h1, _, _, h2, _⟩ := ClientProof.stops hown hc hfin later hsplit hpre hg (EarlyProof.data_whole hx.cipher (EarlyProof.appKey_sizes _ _ _) hdata)
  refine ⟨s, h, h1, h2, ?_⟩
  intro hlater bufLen
  unfold TlsStream.tlsRead TlsStream.tcpRead
  rw [h2, hlater]

/-- The server of the library with the example client meets the conditions of `C47_client_for` and of `C47_client_lost`, with a payload of two bytes. -/
theorem C47_client_example : ∃ (env : ClientEnv) (rng : List Bytes) (n : Int) (x : Params) (ch sh shRec messages : Bytes) (auth init : List Bytes) (fin w : Bytes),
    (∀ c, env.config.clientCert = some c → c.raw.length + 400 ≤ 2 ^ 24) ∧ ConformingServer env rng n x ch sh shRec messages auth (init ++ [fin]) ∧
    (¬ ∃ c, Tls13.IsRecord 20#8 c fin) ∧ (∀ w ∈ shRec :: init, w.length ≤ 2048) ∧ fin.length + w.length ≤ 2048 ∧
    Tls13.AppData (aead x.c) (x.appKey messages .server).key (x.appKey messages .server).iv 0 [ascii "hi"] [w] := by
  obtain ⟨⟨kc, ks, q, r, rng, auth, ws, cws, R⟩, _⟩ := PairProof.example_runs
  have hcert : (Spec.X509.certificate ownTbs ownR ownS).length + 400 ≤ 2 ^ 24 := by decide +kernel
  obtain ⟨data, d1, d2⟩ := EarlyProof.data_exists R.ok.cipher (EarlyProof.appKey_sizes r.x r.transcript .server) 0 [ascii "hi"] (by decide +kernel)
  obtain ⟨w, rest, rfl, _, d3⟩ := id d1
  rw [Tls13.AppData] at d3
  subst d3
  have hwl : w.length = 24 := by
    cases d2 with
    | cons h _ => rw [h]; decide +kernel
  obtain ⟨init, fin, rfl, hno⟩ := R.serverLast
  have hown : ∀ c, ({ exampleClient (some (ascii "anothertls.local")) with nonces := [kc] } : ClientEnv).config.clientCert = some c → c.raw.length + 400 ≤ 2 ^ 24 := by
    intro c hc
    have hr : c.raw = Spec.X509.certificate ownTbs ownR ownS := congrArg Certificate.raw (Option.some.inj hc).symm
    rw [hr]
    exact hcert
  have size0 : (Spec.X509.certificate ownTbs ownR ownS).length ≤ 1800 := by decide +kernel
  refine ⟨_, _, _, r.x, r.ch, r.sh, _, r.transcript, auth, r.ccs :: init, fin, w, hown, R.server, hno, ?_, ?_, d1⟩
  · intro v hv
    refine R.fromServer size0 v ?_
    rcases List.mem_cons.1 hv with rfl | hv
    · exact List.mem_cons_self
    · exact List.mem_cons_of_mem _ (List.mem_append_left [fin] hv)
  · have := R.serverShort size0 fin (by simp)
    omega

theorem C47_client_false : ¬ C47_client_statement := by
  intro hst
  obtain ⟨env, rng, n, x, ch, sh, shRec, messages, auth, init, fin, w, h1, h3, h4, h5, h6, h7⟩ := C47_client_example
  have hsum : (([] : List Bytes) ++ fin :: [w]).flatten.length ≤ 2048 := by simpa using h6
  obtain ⟨s, h, g1, _, g3⟩ := C47_client_lost env rng n x ch sh shRec messages auth init fin _ [w] ((shRec :: init).map fun v => [v]) [] [] h1 h3 h4 h7 (by simp [EarlyProof.flatten_single])
    (by
      intro g hg
      obtain ⟨v, hv, rfl⟩ := List.mem_map.1 hg
      exact ⟨by simp, by simpa using h5 v hv⟩) hsum
  obtain ⟨s', h', e1, e2⟩ := hst env rng n x ch sh shRec messages auth init fin _ [w] _ 100 h1 h3 h4 h7 (by decide) (by decide +kernel) (by
      intro v hv
      rw [List.mem_singleton.1 hv]
      omega) ⟨(shRec :: init).map (fun v => [v]) ++ [[] ++ fin :: [w]], by simp [EarlyProof.flatten_single], rfl, by
      intro g hg
      rcases List.mem_append.1 hg with hg | hg
      · obtain ⟨v, hv, rfl⟩ := List.mem_map.1 hg
        exact ⟨by simp, by simpa using h5 v hv⟩
      · rw [List.mem_singleton.1 hg]
        exact ⟨by simp, hsum⟩⟩
  rw [List.map_append, List.map_singleton, g1] at e1
  obtain ⟨e1, _⟩ := Prod.mk.inj e1
  obtain rfl := Res.ok.inj e1
  have := g3 rfl 100
  rw [List.length_singleton, readPayloads] at e2
  revert this e2
  rcases s.tlsRead 100 with ⟨_ | _ | _, _⟩ <;> simp

end ATLS
