import Verif.Props.Refused
import Verif.Props.PairExample
import Verif.Props.Retry
import Verif.Props.AgreementExample
/-
C104: the full statement for the server, why it is false, the part that is true, and runs the theorems are about.
-/
namespace ATLS
open ATLS.Model ATLS.Spec FlowProof

/-- The alert `written` after nothing else in plaintext, or after the whole flight as the first record under the server's application traffic key: what a
client that follows RFC 8446 can read. -/
def AlertReadable (env : ServerEnv) (reads : List Bytes) (written : Bytes) : Prop :=
  (∃ level description : Byte, written = Tls13.plainRecord 21#8 [level, description]) ∨
  ∃ (r : Exchange) (rng : Rng) (context : Option Bytes) (swire alert : Bytes) (level description : Byte),
    HelloAnsweredBy env reads r.x r.ch r.sh r.ccs rng ∧ Drawn env rng context ∧ ServerFlight env r.x context r.flight ∧
    Tls13.Sent (aead r.x.c) (r.x.sess.key .server) (r.x.sess.iv .server) 0 r.flight swire ∧
    AlertRecord (aead r.x.c) (r.x.sess.appKey r.transcript .server) (r.x.sess.appIv r.transcript .server) 0 level description alert ∧
    written = Tls13.plainRecord 22#8 r.sh ++ r.ccs ++ swire ++ alert

/-- C104 for the runs `P`: when the server gives up with an error of its own, the client can read the alert. -/
def C104_for (P : ServerEnv → List Bytes → List Bytes → Prop) : Prop :=
  ∀ env reads incoming e h, P env reads incoming → OwnError env reads incoming e → ServerConnection.accept env reads ⟨incoming, [], []⟩ = (.err e, h) →
    AlertReadable env reads h.stream.stream.written

/-- The full statement. -/
def C104_statement : Prop := C104_for fun _ _ _ => True

/-- The runs for which it is proved: the first read is a ClientHello the server cannot parse, or the client's certificate is refused and everything else
in its flight is in order. -/
def AlertOrdered (env : ServerEnv) (reads incoming : List Bytes) : Prop :=
  (∃ body w rest e, incoming = w :: rest ∧ Tls13.IsRecord 22#8 (Tls13.handshakeMessage 1#8 body) w ∧ w.length ≤ 4096 ∧ ClientHello.fromRaw body = .err e ∧ ¬ NotAnswered e) ∨
  ∃ r rng c m e more rest records later, incoming = r.chRec :: later ∧ env.config.prngType = .urandom ∧ env.config.cert.raw.length + 200 ≤ 2 ^ 24 ∧
    RefusedClient env reads r rng c m e more rest records ∧ ¬ NotAnswered e ∧ r.chRec.length ≤ 4096 ∧ Tls13.Delivers 4096 records later

theorem C104_server_partial : C104_for AlertOrdered := by
  rintro env reads incoming e h (⟨body, w, rest, e', rfl, hw, hl, hp, hn'⟩ | ⟨r, rng, c, m, e', more, rest, records, later, rfl, hu, hcert, hc, hn', hl, hd⟩) _ ha
  · have hb : body.length < 2 ^ 24 := by
      obtain ⟨v1, v2, h1, _⟩ := hw
      simp only [Tls13.handshakeMessage, List.length_append] at h1
      omega
    have hres : ∀ (record : Record) (k : ServerHandshake), record.fraqment = Tls13.handshakeMessage 1#8 body → ServerHandshake.handleClientHello env record k = (.err e', k) :=
      fun record k hf => HelloProof.handle_refused env record k body hb hf hp
    obtain ⟨h', g1, g2⟩ := ServerProof.first_error env reads hw hl rest hn' hres
    rw [ha] at g1
    obtain ⟨-, rfl⟩ := Prod.mk.inj g1
    exact .inl ⟨_, _, g2⟩
  · obtain ⟨h', swire, alert, g1, g2, g3, g4⟩ := C104_server_refuses env reads r rng c m e' more rest records later hu hcert hc hn' hl hd
    rw [ha] at g1
    obtain ⟨-, rfl⟩ := Prod.mk.inj g1
    exact .inr ⟨r, rng, some c, swire, alert, _, _, hc.answered, hc.drawn, hc.flight, g2, g3, g4⟩

namespace RefusedProof
open RecProof

/-- The size of a protected flight. -/
theorem sent_length {x : Params} (hx : x.Ok) {side : Tls13.Side} : ∀ (ms : List Bytes) (seq : Nat) (wire : Bytes), (∀ m ∈ ms, m.length ≤ 2 ^ 20) →
    Tls13.Sent (aead x.c) (x.sess.key side) (x.sess.iv side) seq ms wire → wire.length = ms.flatten.length + 22 * ms.length
  | [], _, wire, _, h => by
    have h : wire = [] := h
    simp [h]
  | m :: ms, seq, wire, hb, ⟨ct, tag, rest, h1, h2, h3⟩ => by
    have h4 := sent_length hx ms _ _ (fun m hm => hb m (by simp [hm])) h3
    have hm := hb m (by simp)
    have hkeys := hsKey_sizes x side seq
    obtain ⟨ct', tag', g1, g2, g3, _⟩ := C15_aead_round_trip x.cs x.c hx.cipher (x.hsKey side seq).key (Tls13.nonce (x.hsKey side seq).iv seq) (m ++ [22#8])
      (Tls13.protectedHeader (m.length + 1)) (suiteKeys hkeys _) (by simp [Tls13.protectedHeader, beBytes_length]; omega)
    have g1' : x.c.encrypt (x.sess.key side) (Tls13.nonce (x.sess.iv side) seq) (m ++ [22#8]) (Tls13.protectedHeader (m.length + 1)) = .ok (ct', tag') := g1
    unfold aead at h1
    rw [g1'] at h1
    obtain ⟨rfl, rfl⟩ := Prod.mk.inj (Option.some.inj h1)
    rw [h2]
    simp only [Tls13.protectedHeader, List.length_append, List.length_cons, List.length_nil, beBytes_length, List.flatten_cons, h4, g2, g3]
    omega

/-- The first flight of the example server without a client CA is short. -/
theorem small {ce : ClientEnv} {k : Int} {name : Option Bytes} {crng srng : List Bytes} {q : Draws} {r : Exchange} {rng : Rng} {auth ws cws : List Bytes}
    (R : PairProof.Runs ce { exampleServer none name with nonces := [k] } crng srng q r rng auth ws cws)
    {swire : Bytes} (hs : Tls13.Sent (aead r.x.c) (r.x.sess.key .server) (r.x.sess.iv .server) 0 r.flight swire) :
    (Tls13.plainRecord 22#8 r.sh ++ r.ccs ++ swire).length < 2048 := by
  obtain ⟨request, cv, h1, ⟨sig, der, h2, h3, h4⟩, h5⟩ := R.client.flight
  have hreq : request = [] := by
    have h1 : q.contextOf _ = none ∧ request = [] := h1
    exact h1.2
  subst hreq
  have hcl : (certificateMsg (exampleServer none name).config.cert).length = 550 := by
    simp only [certificateMsg, Tls13.handshakeMessage, Tls13.certificateMessage, List.length_append, beBytes_length]
    have : (exampleServer none name).config.cert.raw.length = 537 := by
      show (Spec.X509.certificate ownTbs ownR ownS).length = 537
      decide +kernel
    simp [Tls13.certificateEntry, beBytes_length, this]
  generalize certificateMsg (exampleServer none name).config.cert = cm at h2 h5 hcl
  have hch : r.ch.length ≤ 4096 := by
    have := R.fromClient r.chRec (by simp)
    rw [R.rec_] at this
    simp only [Tls13.plainRecord, List.length_append] at this
    omega
  have hsh := R.hello.2
  have hhl : r.x.hellos.length ≤ 4296 := by
    obtain ⟨_, _, _, _, _, _, _, _, _, _, _, _, _, _, _, _, _, _, _, e⟩ := R.client.answered
    rw [e, List.length_append]
    omega
  have hee : encryptedExtensions.length = 6 := rfl
  have hm : (r.x.hellos ++ ([encryptedExtensions] ++ [] ++ [cm]).flatten).length < 2 ^ 53 := by
    simp [hee, hcl]; omega
  have hder : der.length ≤ 100 := by
    obtain ⟨_, der', _, _, q1, q2⟩ := ServerProof.cvBody_inv .server hm (cvBody_of .server hm h2 h3)
    have := congrArg List.length q1
    simp only [Tls13.certificateVerifyMessage, List.length_append, beBytes_length] at this
    omega
  have hcv : cv.length = der.length + 8 := by
    rw [h4]
    simp [Tls13.handshakeMessage, Tls13.certificateVerifyMessage, beBytes_length]
    omega
  have hfin := finished_le r.x .server (r.x.hellos ++ ([encryptedExtensions] ++ [] ++ [cm, cv]).flatten) (by simp [hee, hcl, hcv]; omega)
  generalize r.x.sess.finished .server (r.x.hellos ++ ([encryptedExtensions] ++ [] ++ [cm, cv]).flatten) = fin at h5 hfin
  have h5 : r.flight = [encryptedExtensions, cm, cv, fin] := h5
  have hlen := sent_length R.ok r.flight 0 swire (by
    rw [h5]
    intro m hm
    simp only [List.mem_cons, List.not_mem_nil, or_false] at hm
    rcases hm with rfl | rfl | rfl | rfl <;> omega) hs
  rw [h5] at hlen
  simp only [List.flatten_cons, List.flatten_nil, List.length_append, List.length_cons, List.length_nil] at hlen
  rw [R.ccs]
  simp only [Tls13.plainRecord, List.length_append, List.length_cons, List.length_nil, beBytes_length]
  omega

end RefusedProof

/-- C104 is false: a server that has answered the hello and then meets a byte that is no record sends an alert no client can read. -/
theorem C104_false : ¬ C104_statement := by
  intro hst
  obtain ⟨⟨kc, ks, q, r, rng, auth, ws, cws, R⟩, -⟩ := PairProof.example_runs
  have hch : r.chRec.length ≤ 4095 := by
    obtain ⟨_, _, _, random, sid, _, _, _, l1, l2, _, _, e⟩ := R.offered
    have hl := HelloProof.offer_length random sid (publicShare q.clientKey) (exampleClient (some (ascii "anothertls.local"))).config.serverName (publicShare_length _)
    rw [R.rec_, e]
    simp only [Tls13.plainRecord, Tls13.handshakeMessage, Tls13.ClientHelloMsg.bytes, List.length_append, Tls13.vec2, beBytes_length]
    rw [hl]
    have ha : (ascii "anothertls.local").length ≤ 100 := by decide +kernel
    generalize ascii "anothertls.local" = a at ha ⊢
    simp [exampleClient, Tls13.clientOffer, l1, l2, Tls13.u16s]
    omega
  obtain ⟨g0, h, g1, g2⟩ := C104_server_unsent _ _ r rng _ 0#8 rfl (by show (Spec.X509.certificate ownTbs ownR ownS).length + 200 ≤ 2 ^ 24; decide +kernel) R.client.hello R.client.answered R.client.drawn R.client.flight
    (by omega) (fun swire hs => RefusedProof.small R hs)
  obtain ⟨ct, tag, n, _, hw, _⟩ := g2
  rcases hst _ _ _ _ _ trivial g0 g1 with ⟨l, d, h1⟩ | ⟨_, _, _, _, _, _, _, _, _, _, _, _, h1⟩
  · rw [hw] at h1
    exact absurd (congrArg List.head? h1) (by simp [Tls13.protectedHeader, Tls13.plainRecord])
  · rw [hw] at h1
    exact absurd (congrArg List.head? h1) (by simp [Tls13.protectedHeader, Tls13.plainRecord])

/-- The runs of `C104_server_partial` exist: a hello without any content, -/
example : AlertOrdered (exampleServer none none) [] [Tls13.plainRecord 22#8 (Tls13.handshakeMessage 1#8 (zeros 40))] :=
  .inl ⟨zeros 40, _, [], _, rfl, ⟨3#8, 3#8, by decide, rfl⟩, by decide, rfl, by rintro (⟨_, h⟩ | h | h) <;> cases h⟩

/-- and the library's own client, whose certificate the server's function denies. -/
theorem C104_denied_example : ∃ env reads incoming h, AlertOrdered env reads incoming ∧ ServerConnection.accept env reads ⟨incoming, [], []⟩ = (.err .accessDenied, h) := by
  obtain ⟨-, ⟨ca, kc, ks, q, r, rng, auth, ws, cws, R⟩⟩ := PairProof.example_runs
  obtain ⟨m1, m2, cert, rfl, ⟨ca', hs, c, rest, x, p1, p2, p3, p4, p5, p6, p7, p8, _⟩, hs2, p9, p10, _⟩ := R.client.proof
  obtain ⟨env, henv⟩ : ∃ env : ServerEnv, env = { exampleServer (some ca) (some (ascii "anothertls.local")) with
    nonces := [ks], config := { (exampleServer (some ca) (some (ascii "anothertls.local"))).config with clientCertCustomVerifyFn := some fun _ => false } } := ⟨_, rfl⟩
  have hsz : (Spec.X509.certificate ownTbs ownR ownS).length + 200 ≤ 2 ^ 24 := by decide +kernel
  have hrc : RefusedClient env [zeros 100, oneRead, zeros 100] r rng c m1 .accessDenied [m2] [] cws := by
    refine ⟨R.client.hello, ?_, ?_, ?_, ?_, ?_, by simp, ?_⟩
    · rw [henv]; exact R.client.answered
    · rw [henv, ← p4]; exact R.client.drawn
    · rw [henv, ← p4]; exact R.client.flight
    · refine ⟨ca', hs, rest, by rw [henv]; exact p1, p2, p3, p5, .inr ⟨[cert], cert, by rw [henv]; exact p6, rfl, .inr ⟨p7, x, fun _ => false, p8, by rw [henv], rfl, rfl⟩⟩⟩
    · intro b hb
      obtain rfl := List.mem_singleton.1 hb
      obtain ⟨_, requests, _, _, _, _, _, _, _, _, _, _, ha, _⟩ := R.server.flight
      unfold ClientAnswer at ha
      split at ha
      · cases ha
      · obtain ⟨_, _, _, _, _, _, _, cm, der, _, _, _, _, ha⟩ := ha
        obtain ⟨rfl, hm⟩ := List.cons.inj ha
        obtain ⟨rfl, -⟩ := List.cons.inj hm
        have h1 := (AgreeProof.flight_carried R.ok R.client.records (by simp)).2
        have h2 := AgreeProof.sum_le R.short
        rw [R.count] at h2
        simp only [List.flatten_append, List.flatten_cons, List.length_append, List.length_cons, List.length_nil] at h1 h2
        have h3 : (Tls13.handshakeMessage 15#8 (Tls13.certificateVerifyMessage 0x0403 der)).length = 1 + 3 + (Tls13.certificateVerifyMessage 0x0403 der).length := by
          simp only [Tls13.handshakeMessage, List.length_append, beBytes_length, List.length_cons, List.length_nil]
        exact ⟨.certificateVerify, _, by decide, by omega, rfl⟩
    · have := R.client.records
      simpa using this
  have hn : ¬ NotAnswered .accessDenied := by rintro (⟨_, h⟩ | h | h) <;> cases h
  have hd : Tls13.Delivers 4096 cws cws := Tls13.delivers_single fun w hw => R.fromClient w (by simp [hw])
  have hc : env.config.cert.raw.length + 200 ≤ 2 ^ 24 := by rw [henv]; exact hsz
  obtain ⟨h, _, _, g, _⟩ := C104_server_refuses env _ r rng c m1 .accessDenied [m2] [] cws cws (by rw [henv]; rfl) hc hrc hn (R.fromClient _ (by simp)) hd
  exact ⟨env, _, _, h, .inr ⟨r, rng, c, m1, _, [m2], [], cws, cws, rfl, by rw [henv]; rfl, hc, hrc, hn, R.fromClient _ (by simp), hd⟩, g⟩

/-- A client of `C104_server_wrong_finished`: the library's own, made to send an empty Finished. -/
example : ∃ env reads incoming h, ServerConnection.accept env reads ⟨incoming, [], []⟩ = (.err .decryptError, h) := by
  obtain ⟨⟨kc, ks, q, r, rng, auth, ws, cws, R⟩, -⟩ := PairProof.example_runs
  obtain ⟨w, hw, hwl⟩ : ∃ w, Tls13.Protected (aead r.x.c) (r.x.sess.key .client) (r.x.sess.iv .client) 0 22#8 (Tls13.handshakeMessage 20#8 [] ++ []) w ∧ w.length ≤ 4096 := by
    obtain ⟨c, hcc⟩ : ∃ c, c = Tls13.handshakeMessage 20#8 [] ++ [] := ⟨_, rfl⟩
    have hcl : c.length = 4 := by rw [hcc]; rfl
    rw [← hcc]
    obtain ⟨ct, tag, g1, g2, g3, _⟩ := C15_aead_round_trip r.x.cs r.x.c R.ok.cipher (r.x.hsKey .client 0).key (Tls13.nonce (r.x.hsKey .client 0).iv 0) (c ++ [22#8] ++ zeros 0)
      (Tls13.protectedHeader (c.length + 1 + 0)) (RecProof.suiteKeys (hsKey_sizes r.x .client 0) _) (by simp [Tls13.protectedHeader, beBytes_length]; omega)
    refine ⟨_, ⟨ct, tag, 0, by omega, rfl, ?_⟩, ?_⟩
    · have g1' : r.x.c.encrypt (r.x.sess.key .client) (Tls13.nonce (r.x.sess.iv .client) 0) (c ++ [22#8] ++ zeros 0) (Tls13.protectedHeader (c.length + 1 + 0)) = .ok (ct, tag) := g1
      unfold aead
      rw [g1']
    · simp only [List.length_append, g2, g3, Tls13.protectedHeader, beBytes_length, List.length_cons, List.length_nil, zeros_length]
      omega
  obtain ⟨h, _, _, g, _⟩ := C104_server_wrong_finished _ _ r rng [] [] [w] [w] rfl (by show (Spec.X509.certificate ownTbs ownR ownS).length + 200 ≤ 2 ^ 24; decide +kernel) rfl
    R.client.hello R.client.answered R.client.flight (by simp) (by
      intro h
      have := congrArg List.length h
      rw [RfcProof.finished_length] at this
      revert this
      cases r.x.t <;> decide) (.cons _ _ _ _ _ hw (.nil _)) (R.fromClient _ (by simp)) (Tls13.delivers_single (by simpa using hwl))
  exact ⟨_, _, _, h, g⟩

end ATLS
