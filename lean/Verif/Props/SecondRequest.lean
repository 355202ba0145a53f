import Verif.Props.RfcServerExample
import Verif.Spec.SecondRequest
/-
C124: what the client makes of a second certificate request.
-/
namespace ATLS
open ATLS.Model ATLS.Spec FlowProof RfcProof

/-- C124 in full: when the client completes the handshake with a server, otherwise following RFC 8446, the server sent at most one certificate request. -/
def C124_statement : Prop :=
  ∀ (env : ClientEnv) (reads : List Bytes) (n : Int) (ch sid shRec : Bytes) (v : Tls13.Server) (records incoming : List Bytes) (s : TlsStream),
    Offered env reads n ch → v.FollowsRepeating ch sid (publicShare n) env.now → v.Sends ch sid (publicShare n) shRec records →
    Tls13.Pieces 2048 [] (shRec :: records) incoming → (ClientConnection.connect env reads ⟨incoming, [], []⟩).1 = .ok s → v.requests.length ≤ 1

namespace RfcProof

/-- `conforming_rfc` with any number of certificate requests. -/
theorem conforming_repeating {env : ClientEnv} {reads : List Bytes} {n : Int} {sid ch : Bytes} (hoff : Offered env reads n ch) (hsid : sid.length = 32)
    (hrange : 256 ≤ n ∧ n < 2 ^ 256) (hchl : ch.length < 2 ^ 45) {v : Tls13.Server} {session : Tls13.Session} {messages shRec : Bytes} {records : List Bytes}
    (hsess : session = v.session ch sid (publicShare n)) (hmsgs : messages = v.transcript ch sid (publicShare n))
    (hf : v.FollowsRepeating ch sid (publicShare n) env.now) (hmany : v.requests.length ≤ 1000)
    (hread : ∀ cs t c, LibSuite v.code v.suite cs t c → ∃ hello, ServerHello.fromRaw (v.helloMsg sid).bytes = .ok hello ∧
      hello.getPublicKeyShare = some ⟨.x25519, Tls13.x25519Public v.key⟩ ∧ hello.cipherSuite = cs) (hsend : v.Sends ch sid (publicShare n) shRec records)
    (p1 : (Tls13.x25519Public v.key).getD 0 0 ≠ 0) (p2 : (X25519.x25519 v.key (publicShare n)).getD 0 0 ≠ 0)
    (p3 : GoodDates v.proof.leaf env.now) (p4 : v.proof.leaf.der.length < 2 ^ 16)
    (p5 : v.code = 0x1303 → ∀ w ∈ records, w.length % 64 ≠ 21) :
    ∃ x : Params, x.sess = session ∧ LibSuite v.code v.suite x.cs x.t x.c ∧ messages.length < 2 ^ 50 ∧
      ∀ auth, ClientAnswer env x messages v.requests.getLast? auth → ConformingServer env reads n x ch (v.hello sid) shRec messages auth records := by
  obtain ⟨cs, t, c, hl⟩ := lib_suite hf.suite
  obtain ⟨share, hshare⟩ : ∃ share, share = publicShare n := ⟨_, rfl⟩
  rw [← hshare] at hsess hmsgs hf hsend p2
  obtain ⟨x, hx⟩ : ∃ x : Params, x = ⟨t, cs, c, X25519.x25519 v.key share, ch ++ v.hello sid⟩ := ⟨_, rfl⟩
  have hxs : x.sess = session := by rw [hx, hsess]; exact session_eq hl
  obtain ⟨contents, hco, hpf⟩ := hsend.flight
  rw [← hsess] at hco hpf
  have hcl := ClientProof.content_le hpf
  -- the hello
  obtain ⟨hello, e1, e2, e3⟩ := hread _ _ _ hl
  have hch16 : (v.hello sid).length < 2 ^ 16 := by
    obtain ⟨_, _, hlen, _⟩ := hsend.hello
    exact hlen
  have hbl : (v.helloMsg sid).bytes.length < 2 ^ 24 := by
    have := hch16
    simp only [Tls13.Server.hello, Tls13.handshakeMessage, List.length_append, beBytes_length, List.length_singleton] at this
    omega
  have hraw := fromRaw_message .serverHello (v.helloMsg sid).bytes [] hbl
  rw [List.append_nil] at hraw
  have hans : ServerAnswered x n ch (v.hello sid) := by
    refine ⟨_, hello, _, hraw, rfl, e1, e2, rfl, ?_, ?_, ?_, ?_, ?_⟩
    · rw [hx, hshare]
      exact secret_rfc (by omega) hrange.2 hf.key p1 (by rw [← hshare]; exact p2)
    · rw [hx, e3]
    · rw [hx]; exact hl.tshash
    · rw [hx]; exact hl.cipher
    · rw [hx]
  -- the flight
  have hflight : v.flight session = serverMessages x v.extensions v.requests (v.proof.certificate []) v.proof.verify := by
    unfold serverMessages Tls13.Server.flight Tls13.Server.opening
    rw [hxs]
    have : session.hellos = x.hellos := by rw [hsess, hx]; rfl
    rw [this]
    simp [opening, List.append_assoc]
  have hmm : messages = x.hellos ++ (serverMessages x v.extensions v.requests (v.proof.certificate []) v.proof.verify).flatten := by
    rw [hmsgs, ← hflight, hx, hsess]
    rfl
  have hml : messages.length < 2 ^ 50 := by
    have h5 := coalesced_le hco hcl
    have h6 : (v.flight session).length ≤ 1004 := by
      have := hmany
      simp only [Tls13.Server.flight, Tls13.Server.opening, List.length_append, List.length_cons, List.length_nil, List.length_map]
      omega
    rw [hmsgs]
    unfold Tls13.Server.transcript
    rw [← hsess]
    simp only [List.length_append]
    omega
  obtain ⟨Q, hQ, hacc⟩ := hf.proof.signature
  obtain ⟨leaf, l1, l2, l3⟩ := leaf_read hf.proof.leaf hQ p4 hf.proof.period p3
  have hpres : ServerPresented env (v.proof.certificate []) ⟨v.proof.leaf.der, some leaf⟩ :=
    ⟨_, rfl, ((C70_read env.now [] (by simp)).2 _ _ _ hf.proof.size).1 leaf l1 l3⟩
  have hseen : session.hellos ++ v.opening.flatten = x.hellos ++ opening v.extensions v.requests ++ v.proof.certificate [] := by
    have : session.hellos = x.hellos := by rw [hsess, hx]; rfl
    rw [this]
    simp [Tls13.Server.opening, opening, List.append_assoc]
  have hsl : (x.hellos ++ opening v.extensions v.requests ++ v.proof.certificate []).length < 2 ^ 53 := by
    have := congrArg List.length hmm
    simp only [serverMessages, List.length_append, List.flatten_append, List.flatten_cons, List.flatten_nil, opening] at this ⊢
    omega
  have hposs : ServerPossessed x (x.hellos ++ opening v.extensions v.requests ++ v.proof.certificate []) v.proof.verify ⟨v.proof.leaf.der, some leaf⟩ := by
    refine ⟨_, rfl, verified_rfc l2 .server hsl ?_⟩
    have ht : rfcHash x.t = v.suite.hash := by rw [hx]; exact hl.hash
    rw [ht, ← hseen, hsess]
    exact hacc
  have hrec : Tls13.ProtectedFlight (aead c) (x.hsKey .server 0).key (x.hsKey .server 0).iv 0 contents records := by
    refine flight_lib (k := x.hsKey .server 0) hl (by have := hsKey_sizes x .server 0; rw [hx] at this ⊢; exact this) ?_ p5
    have e1 : (x.hsKey .server 0).key = x.sess.key .server := rfl
    have e2 : (x.hsKey .server 0).iv = x.sess.iv .server := rfl
    rw [e1, e2, hxs]
    exact hpf
  refine ⟨x, hxs, by rw [hx]; exact hl, hml, fun auth ha => ⟨hoff, hsend.hello, hans, ⟨v.extensions, v.requests, v.proof.certificate [], v.proof.verify,
    ⟨v.proof.leaf.der, some leaf⟩, contents, hpres, hposs, hmm, hml, by rw [← hflight]; exact hco, ?_, ha, fun b hb => hf.requests b (List.mem_of_getLast? hb)⟩⟩⟩
  have : x.c = c := by rw [hx]
  rw [this]
  exact hrec

theorem repeating_opening (rq : List Bytes) (hrq : ∀ b ∈ rq, Tls13.IsCertificateRequest b ∧ b.length ≤ 900) (hmany : rq.length ≤ 1000) :
    (∀ c ∈ (rfcServer rq 0 0).opening, c.length ≤ 1000) ∧ (rfcServer rq 0 0).opening.flatten.length ≤ 1100000 := by
  have h1 : ∀ c ∈ (rfcServer rq 0 0).opening, c.length ≤ 1000 := by
    intro c hc
    have hc : c ∈ [Tls13.handshakeMessage 8#8 [0#8, 0#8]] ++ rq.map (Tls13.handshakeMessage 13#8) ++ [(rfcServer [] 0 0).proof.certificate []] := hc
    simp only [List.mem_append, List.mem_singleton, List.mem_map] at hc
    rcases hc with (rfl | ⟨b, hb, rfl⟩) | rfl
    · decide
    · have := (hrq b hb).2
      simp only [Tls13.handshakeMessage, List.length_append, beBytes_length, List.length_singleton]
      omega
    · decide +kernel
  refine ⟨h1, le_trans (flatten_le (n := 1001) fun c hc => Nat.lt_succ_of_le (h1 c hc)) (le_trans (Nat.mul_le_mul_right _ (m := 1002) ?_) (by norm_num))⟩
  simp only [Tls13.Server.opening, rfcServer, List.length_append, List.length_map, List.length_cons, List.length_nil]
  omega

/-- The example server can make its signature and send its messages, whatever its certificate requests. -/
theorem server_exists_repeating (rq : List Bytes) (hrq : ∀ b ∈ rq, Tls13.IsCertificateRequest b ∧ b.length ≤ 900) (hmany : rq.length ≤ 1000) (ch : Bytes) (hch : ch.length < 2 ^ 45)
    (sid : Bytes) (hsid : sid.length = 32) : ∃ r s shRec records,
    (rfcServer rq r s).FollowsRepeating ch sid (publicShare 256) june2023 ∧
    (rfcServer rq r s).Sends ch sid (publicShare 256) shRec records ∧
    Tls13.Pieces 2048 [] (shRec :: (records ++ [])) (shRec :: records) ∧ (shRec :: records).flatten.length < 2 ^ 24 := by
  have hsh := public_length (scalarBytes_length 257)
  obtain ⟨v0, hv0⟩ : ∃ v0, v0 = rfcServer rq 0 0 := ⟨_, rfl⟩
  obtain ⟨m, hm⟩ : ∃ m, m = (v0.session ch sid (publicShare 256)).hellos ++ v0.opening.flatten := ⟨_, rfl⟩
  obtain ⟨ks, hs⟩ := PairProof.signs_of (key := ownKey) rfl (by decide +kernel) (Tls13.verifyContent .server (v0.suite.hash.H m))
  have hhl : (v0.suite.hash.H m).length = 32 := by
    have e : v0.suite.hash.H m = Sha2.sha256 m := by rw [hv0]; rfl
    rw [e]
    refine sha_length ?_
    have h1 : v0.opening.flatten.length ≤ 1100000 := by rw [hv0]; exact (repeating_opening rq hrq hmany).2
    have h2 : (v0.hello sid).length = 122 := by rw [hv0]; exact hello_length rq 0 0 hsid
    rw [hm]
    simp only [Tls13.Server.session, List.length_append]
    omega
  obtain ⟨r, s, _, _, h3, _, _⟩ := signed_rfc (key := ownKey) rfl (by decide +kernel) (by
    simp only [Tls13.verifyContent, List.length_append, List.length_replicate, CertProof.context_length, List.length_singleton]
    omega) hs
  rw [own_coords] at h3
  obtain ⟨v, hv⟩ : ∃ v, v = rfcServer rq r s := ⟨_, rfl⟩
  have hf : v.FollowsRepeating ch sid (publicShare 256) june2023 := by
    rw [hv]
    refine ⟨scalarBytes_length 257, ?_, by simp [rfcServer, Tls13.suites], rfl, rfl, fun b hb => (hrq b hb).1, ?_⟩
    · refine ⟨rfl, by simp [Tls13.Server.helloMsg, hsid], by simp [Tls13.Server.helloMsg, rfcServer], ?_, ?_⟩
      · intro e he
        simp only [Tls13.Server.helloMsg, rfcServer, List.mem_cons, List.not_mem_nil, or_false] at he
        rcases he with rfl | rfl
        · exact ⟨by simp, by simp only [hsh]; omega⟩
        · show (0x0304 : Nat) < 65536
          decide
      · simp [Tls13.Server.helloMsg, rfcServer, Tls13.ServerExt.bytes, Tls13.ServerExt.body, Tls13.share, Tls13.vec2, beBytes_length, hsh]
    · refine ⟨X509Proof.own_wellFormed, ?_, ?_, ⟨ownQ, ?_, ?_⟩⟩
      · exact own_period
      · show (([(Tls13.Cert.der ⟨ownTbs, ownR, ownS⟩, ([] : Bytes))]).map Tls13.certificateEntry).flatten.length < 2 ^ 24
        decide +kernel
      · exact ⟨by decide +kernel, by decide +kernel, rfl⟩
      · rw [hm, hv0] at h3
        exact h3
  obtain ⟨session, hsess⟩ : ∃ session, session = v.session ch sid (publicShare 256) := ⟨_, rfl⟩
  obtain ⟨cs, t, c, hl⟩ := lib_suite hf.suite
  have hhello : (v.hello sid).length = 122 := by rw [hv]; exact hello_length rq r s hsid
  have hverify : v.proof.verify.length ≤ 80 := by
    obtain ⟨_, _, _, _, r2, _, t2, _⟩ := h3
    have hn256 := n_lt
    have h1 := sig_length (r := r) (s := s) (by omega) (by omega)
    have h2 := intLen_le (n := r) (by omega)
    have h3 := intLen_le (n := s) (by omega)
    rw [hv]
    simp only [rfcServer, Tls13.Proof.verify, Tls13.handshakeMessage, Tls13.certificateVerifyMessage, List.length_append, beBytes_length, List.length_singleton]
    omega
  have hopen : ∀ c ∈ v.opening, c.length ≤ 1000 := by
    have : v.opening = v0.opening := by rw [hv, hv0]; rfl
    rw [this, hv0]
    exact (repeating_opening rq hrq hmany).1
  have hopen' : v.opening.flatten.length ≤ 1002 * 1001 := by
    refine le_trans (flatten_le (n := 1001) fun c hc => Nat.lt_succ_of_le (hopen c hc)) (Nat.mul_le_mul_right _ ?_)
    rw [hv]
    simp only [Tls13.Server.opening, rfcServer, List.length_append, List.length_map, List.length_cons, List.length_nil]
    omega
  have hmsgs : ∀ c ∈ v.flight session, c.length ≤ 1000 := by
    intro c hc
    rcases List.mem_append.1 hc with hc | hc
    · exact hopen c hc
    · simp only [List.mem_cons, List.not_mem_nil, or_false] at hc
      rcases hc with rfl | rfl
      · omega
      · have hs := session_eq (ch := ch) (sid := sid) (share := publicShare 256) hl
        rw [hsess, ← hs]
        refine le_trans (finished_le _ _ _ ?_) (by decide)
        simp only [Params.sess, List.length_append, List.flatten_append, List.flatten_cons, List.flatten_nil, hhello, List.length_nil]
        omega
  obtain ⟨records, q1, q2, q3⟩ := flight_exists v.suite (session.key .server) (session.iv .server) (v.flight session) 0 (fun c hc => by have := hmsgs c hc; omega)
  refine ⟨r, s, Tls13.plainRecord 22#8 (v.hello sid), records, ?_⟩
  rw [← hv]
  have hall : ∀ w ∈ Tls13.plainRecord 22#8 (v.hello sid) :: records, w.length < 2048 := ?_
  · refine ⟨hf, ⟨⟨3#8, 3#8, by omega, rfl⟩, _, coalesced_single _, by rw [← hsess]; exact q1⟩, ?_, ?_⟩
    · rw [List.append_nil]
      exact (Tls13.delivers_single fun w hw => Nat.le_of_lt (hall w hw)).pieces
    · refine lt_of_le_of_lt (flatten_le hall) ?_
      have : (v.flight session).length ≤ 1004 := by
        rw [hv]
        simp only [Tls13.Server.flight, Tls13.Server.opening, rfcServer, List.length_append, List.length_map, List.length_cons, List.length_nil]
        omega
      rw [List.length_cons, q3]
      omega
  intro w hw
  rcases List.mem_cons.1 hw with rfl | hw
  · simp only [Tls13.plainRecord, List.length_append, beBytes_length, hhello, List.length_cons, List.length_nil]
    omega
  · obtain ⟨c, h1, h2⟩ := q2 w hw
    have := hmsgs c h1
    omega

end RfcProof

/-- C124: the client takes any number of certificate requests: for every list of them (up to 1000, of up to 900 bytes each) there is a server, otherwise
following RFC 8446, that sends them all and with which a client without a certificate completes the handshake. -/
theorem C124_taken (rq : List Bytes) (hrq : ∀ b ∈ rq, Tls13.IsCertificateRequest b ∧ b.length ≤ 900) (hmany : rq.length ≤ 1000) :
    ∃ (env : ClientEnv) (reads : List Bytes) (n : Int) (ch sid shRec : Bytes) (v : Tls13.Server) (records : List Bytes) (s : TlsStream), v.requests = rq ∧
      Offered env reads n ch ∧ v.FollowsRepeating ch sid (publicShare n) env.now ∧ v.Sends ch sid (publicShare n) shRec records ∧
      Tls13.Pieces 2048 [] (shRec :: records) (shRec :: records) ∧ (ClientConnection.connect env reads ⟨shRec :: records, [], []⟩).1 = .ok s ∧
      env.config.clientCert = none ∧ env.config.serverName = some (ascii "anothertls.local") ∧ (shRec :: records).flatten.length < 2 ^ 24 := by
  obtain ⟨r, s, shRec, records, h1, h2, h3, hin⟩ := server_exists_repeating rq hrq hmany exampleOffer offer_short (zeros 32) (by simp [zeros])
  obtain ⟨r', s', _, _, f1, _⟩ := server_exists false exampleOffer offer_short
  obtain ⟨env, henv⟩ : ∃ env : ClientEnv, env = { exampleClient (some (ascii "anothertls.local")) with
    config := { (exampleClient (some (ascii "anothertls.local"))).config with clientCert := none } } := ⟨_, rfl⟩
  have hoff : Offered env [zeros 100, zeros 100, zeros 100] 256 exampleOffer := by
    rw [henv]
    exact ⟨_, _, _, zeros 32, zeros 32, example_between.1, rfl, rfl, by simp [zeros], by simp [zeros], by norm_num, by norm_num, rfl⟩
  have hnow : env.now = june2023 := by rw [henv]; rfl
  have hcert : env.config.clientCert = none := by rw [henv]
  obtain ⟨w1, w2, w3, w4, w5, w6, w7⟩ := example_handled env hnow false r s records (by simp)
  obtain ⟨x, _, _, _, hconf⟩ := conforming_repeating (v := rfcServer rq r s) hoff (by simp [zeros]) (by norm_num) offer_short rfl rfl (by rw [hnow]; exact h1) hmany
    (fun cs t c hl => server_hello_read f1 (by simp [zeros]) hl) h2 w1 w2 w3 w4 w6
  obtain ⟨auth, ha⟩ : ∃ auth, ClientAnswer env x ((rfcServer rq r s).transcript exampleOffer (zeros 32) (publicShare 256)) rq.getLast? auth := by
    rcases hl : rq.getLast? with _ | b
    · exact ⟨[], rfl⟩
    · obtain ⟨extensions, c1, c2⟩ := context_of (hrq b (List.mem_of_getLast? hl)).1
      refine ⟨[Tls13.handshakeMessage 11#8 (beBytes 1 (Tls13.requestContext b).length ++ Tls13.requestContext b ++ [0#8, 0#8, 0#8, 2#8, 0#8, 0#8])],
        Tls13.requestContext b, extensions, [], c1, by rw [List.append_nil]; exact c2, ?_⟩
      rw [hcert]
  obtain ⟨str, h, _, _, g, _⟩ := C76_client_completes env _ 256 x exampleOffer _ shRec _ auth records [] (shRec :: records) (by rw [hcert]; simp) (hconf auth ha) (by simp) h3
  exact ⟨env, _, 256, exampleOffer, zeros 32, shRec, rfcServer rq r s, records, str, rfl, hoff, by rw [hnow]; exact h1, h2, by simpa using h3, by rw [g], hcert, by rw [henv]; rfl, hin⟩

/-- C124 is false: two certificate requests are taken. -/
theorem C124_false : ¬ C124_statement := by
  intro hst
  have hq : ∀ c : Bytes, c.length = 32 → Tls13.IsCertificateRequest (Tls13.certificateRequest c [0x0403]) := fun c hc => C76_request _ _ (by omega) (by decide)
  obtain ⟨env, reads, n, ch, sid, shRec, v, records, s, h1, h2, h3, h4, h5, h6, _⟩ := C124_taken
    [Tls13.certificateRequest (zeros 32) [0x0403], Tls13.certificateRequest (List.replicate 32 1#8) [0x0403]] (by
      intro b hb
      simp only [List.mem_cons, List.not_mem_nil, or_false] at hb
      rcases hb with rfl | rfl
      · exact ⟨hq _ (by simp [zeros]), by decide⟩
      · exact ⟨hq _ (by simp), by decide⟩) (by simp)
  have := hst _ _ _ _ _ _ _ _ _ _ h2 h3 h4 h5 h6
  rw [h1] at this
  simp at this

/-- C124, the part that holds: when `connect` hands out a stream, certificate requests came only between EncryptedExtensions and the server's Certificate;
the client sent a Certificate message only if there was one, it sent just one, with the context of the last request, and at most one message
(CertificateVerify) between it and its Finished message. Missing: that there was at most one request (`C124_false`). -/
theorem C124_last_partial (env : ClientEnv) (reads : List Bytes) (sock : Socket) (s : TlsStream) (h : Option ClientHandshake)
    (hcl : ∀ c, env.config.clientCert = some c → c.raw.length < 2 ^ 24) (hn : ∀ n, env.config.serverName = some n → n.length < 2 ^ 24)
    (hin : sock.incoming.flatten.length < 2 ^ 24) (hw : ClientConnection.connect env reads sock = (.ok s, h)) :
    ∃ r : ClientRun, ClientCompleted env reads sock s r ∧
      (∃ ee cm rest raw x, r.contents.flatten = Tls13.handshakeMessage 8#8 ee ++ (r.requests.map (Tls13.handshakeMessage 13#8)).flatten ++ cm ++ rest ∧
        ServerCertificateShown env cm raw x) ∧
      (r.requests = [] → r.auth = []) ∧
      (∀ b, r.requests.getLast? = some b → ∃ (context after list : Bytes) (more : List Bytes), context.length < 256 ∧
        b = beBytes 1 context.length ++ context ++ after ∧
        r.auth = Tls13.handshakeMessage 11#8 (beBytes 1 context.length ++ context ++ list) :: more ∧
        (more = [] ∨ ∃ body, more = [Tls13.handshakeMessage 15#8 body])) := by
  obtain ⟨r, hc⟩ := C45_client_connects env reads sock s h hcl hn hin hw
  obtain ⟨ee, cm, cv, raw, x, e1, e2, e3⟩ := hc.shown
  obtain ⟨ignored, e4⟩ := hc.messages
  have ha := hc.answer
  refine ⟨r, hc, ⟨ee, cm, cv ++ r.x.sess.finished .server (r.x.hellos ++ r.shown) ++ ignored, raw, x, ?_, e2⟩, ?_, ?_⟩
  · rw [e4]
    nth_rw 1 [e1]
    simp [opening, List.append_assoc]
  · intro h0
    rw [h0] at ha
    exact ha
  · intro b hb
    rw [hb] at ha
    obtain ⟨context, extensions, rest, a1, a2, a3⟩ := ha
    rcases hcert : env.config.clientCert with _ | cert
    · rw [hcert] at a3
      exact ⟨context, beBytes 2 extensions.length ++ extensions ++ rest, _, [], a1, by rw [a2]; simp [List.append_assoc], a3, Or.inl rfl⟩
    · rw [hcert] at a3
      obtain ⟨key, sig, cm', der, _, b2, _, _, b5⟩ := a3
      refine ⟨context, beBytes 2 extensions.length ++ extensions ++ rest, beBytes 3 ([(cert.raw, ([] : Bytes))].map Tls13.certificateEntry).flatten.length ++
        ([(cert.raw, ([] : Bytes))].map Tls13.certificateEntry).flatten, [Tls13.handshakeMessage 15#8 (Tls13.certificateVerifyMessage 0x0403 der)], a1, by rw [a2]; simp [List.append_assoc], ?_, Or.inr ⟨_, rfl⟩⟩
      rw [b5, b2]
      simp only [Tls13.certificateMessage, List.append_assoc]

/-- Its hypotheses are met, with two certificate requests. -/
example : ∃ (env : ClientEnv) (reads : List Bytes) (sock : Socket) (s : TlsStream) (h : Option ClientHandshake) (v : Tls13.Server), v.requests.length = 2 ∧
    (∀ c, env.config.clientCert = some c → c.raw.length < 2 ^ 24) ∧ (∀ n, env.config.serverName = some n → n.length < 2 ^ 24) ∧
    sock.incoming.flatten.length < 2 ^ 24 ∧ ClientConnection.connect env reads sock = (.ok s, h) := by
  obtain ⟨env, reads, n, ch, sid, shRec, v, records, s, h1, _, _, _, _, h6, h7, h8, h9⟩ := C124_taken
    [Tls13.certificateRequest (zeros 32) [0x0403], Tls13.certificateRequest (zeros 32) [0x0403]] (by
      intro b hb
      simp only [List.mem_cons, List.not_mem_nil, or_false, or_self] at hb
      rw [hb]
      exact ⟨C76_request _ _ (by decide) (by decide), by decide⟩) (by simp)
  refine ⟨env, reads, ⟨shRec :: records, [], []⟩, s, _, v, by rw [h1]; rfl, by rw [h7]; simp, ?_, h9, Prod.ext h6 rfl⟩
  intro a ha
  rw [h8] at ha
  obtain rfl := Option.some.inj ha
  decide +kernel

end ATLS
