import Verif.Props.PairExample
import Verif.Props.Session
/-
C60 is false as stated: a signature with a short number ends the handshake of the two ends.
-/
namespace ATLS

namespace ClientProof
open ATLS ATLS.Model ATLS.Spec ClientHandshake FlowProof

/-- A CertificateVerify message whose signature does not verify. -/
theorem certificateVerify_bad {env : ClientEnv} {t : HashType} {h : ClientHandshake} {m b : Bytes} {cert : Certificate} {sig : Signature} {size : Nat}
    (hs : h.state = .serverCertificateVerify) (ht : h.tshash = some (ts t m)) (hc : h.serverCert = some cert)
    (e2 : (slice b 0 2 : Res TlsError Bytes) = .ok [0x04#8, 0x03#8]) (e3 : Signature.fromDer (b.drop 4) = .ok (sig, size)) (e4 : 4 ≤ b.length)
    (e5 : cert.isCertificateValid sig (ts t m) (ascii "server") = .ok false) :
    handleMessage env (Msg.hs (.certificateVerify, b)) h = (.ok (), { h with state := .finishWithError .badCertificate }) := by
  unfold handleMessage
  rw [Step.bind_get, hs]
  simp only []
  unfold handleServerCertificateVerify
  rw [Step.bind_get, hc]
  simp only []
  have e2' : (slice (Msg.hs (.certificateVerify, b)).fraqment 0 2 : Res TlsError Bytes) = _ := e2
  rw [if_neg (by simp [Msg.hs]), Step.bind_lift_ok e2', Step.bind_lift_ok (a := .ecdsaSecp256r1Sha256) (by decide), if_neg (by simp)]
  have hsf : (sliceFrom (Msg.hs (.certificateVerify, b)).fraqment 4 : Res TlsError Bytes) = .ok (b.drop 4) := by
    unfold sliceFrom
    rw [if_pos]
    · rfl
    exact e4
  rw [Step.bind_lift_ok hsf, e3]
  simp only []
  refine (Step.bind_of_ok (tshash_of ht)).trans ?_
  refine (Step.bind_lift_ok (a := false) e5 _ _).trans ?_
  rw [if_pos (by simp), ← hc]
  rfl

/-- After a failed CertificateVerify, the server's Finished ends the handshake. -/
theorem finish_bad {env : ClientEnv} {h : ClientHandshake} {e : TlsError} {b : Bytes} (hs : h.state = .finishWithError e) :
    ∀ h', handleMessage env (Msg.hs (.finished, b)) h ≠ (.ok (), h') := by
  intro h' hh
  unfold handleMessage at hh
  rw [Step.bind_get, hs] at hh
  simp only [] at hh
  unfold handleServerFinish at hh
  rw [Step.bind_get, if_neg (by simp [Msg.hs])] at hh
  obtain ⟨p, k1, h1, hh⟩ := Step.bind_ok.1 hh
  obtain ⟨t, k2, h2, hh⟩ := Step.bind_ok.1 hh
  obtain ⟨v, k3, h3, hh⟩ := Step.bind_ok.1 hh
  rw [hs] at hh
  exact Step.throw_ok hh

/-- A server whose CertificateVerify message does not verify: its records do not complete the handshake. -/
theorem refused_feed {env : ClientEnv} {rng : List Bytes} {n : Int} {ch sh shRec : Bytes} {x : Params} {cert : Certificate} {records : List Bytes}
    {eb cb vb fb : Bytes} {sig : Signature} {size : Nat} (ho : Offered env rng n ch) (ha : ServerAnswered x n ch sh) (hrec : Tls13.IsRecord 22#8 sh shRec) (hl : x.hellos.length < 2 ^ 53)
    (hc : Certificate.fromHello env.now cb = .ok [cert])
    (e2 : (slice vb 0 2 : Res TlsError Bytes) = .ok [0x04#8, 0x03#8]) (e3 : Signature.fromDer (vb.drop 4) = .ok (sig, size)) (e4 : 4 ≤ vb.length)
    (e5 : cert.isCertificateValid sig (ts x.t (x.hellos ++ Msg.raw (.encryptedExtensions, eb) ++ Msg.raw (.certificate, cb))) (ascii "server") = .ok false)
    (hr : Tls13.ProtectedFlight (aead x.c) (x.sess.key .server) (x.sess.iv .server) 0
      [Msg.raw (.encryptedExtensions, eb), Msg.raw (.certificate, cb), Msg.raw (.certificateVerify, vb), Msg.raw (.finished, fb)] records) :
    ∃ g k0, ((Rng.urandom rng).between 1 32 : Res TlsError (Int × Rng)) = .ok (n, g) ∧ sendClientHello env (first n g) = (.ok (), k0) ∧ k0.state = .serverHello ∧ x.Ok ∧
      ∀ k, feed env (shRec :: records) k0 ≠ (.ok (), k) := by
  obtain ⟨g, rng', random, hb, hsend⟩ := hello_of ho
  obtain ⟨k0, hk0⟩ : ∃ k0 : ClientHandshake, k0 = { first n g with
        rng := rng', clientHelloRandom := some random, clientHelloBytes := some ch
        stream := { TlsStream.new ⟨[], [], []⟩ with stream := ⟨[], [], Tls13.plainRecord 22#8 ch⟩ } } := ⟨_, rfl⟩
  rw [← hk0] at hsend
  have hst : k0.state = .serverHello := by rw [hk0]; rfl
  obtain ⟨v1, v2, hshl, rfl⟩ := hrec
  have hraw := RecProof.fromRaw_header .handshake v1 v2 sh [] hshl
  rw [List.append_nil] at hraw
  rw [RecProof.beBytes2]
  obtain ⟨record, hrecord⟩ : ∃ record : Record, record = ⟨.handshake, v1.toNat * 256 + v2.toNat, sh.length,
    [RecordType.handshake.code, v1, v2, BitVec.ofNat 8 (sh.length / 256), BitVec.ofNat 8 sh.length], sh⟩ := ⟨_, rfl⟩
  rw [← hrecord] at hraw
  have hfrag : record.fraqment = sh := by rw [hrecord]
  obtain ⟨p, kl, lg, e1, hx, hprot⟩ := serverHello_of (env := env) (h := k0) (record := record) (random := random) (by rw [hfrag]; exact ha) (by rw [hk0]) (by rw [hk0])
    hl (by rw [hk0]; rfl)
  obtain ⟨k1, hk1⟩ : ∃ k1 : ClientHandshake, k1 = { k0 with
        stream := k0.stream.setProtection (some p), tshash := some (ts x.t x.hellos), state := .encryptedExtensions, keylog := kl, logged := lg } := ⟨_, rfl⟩
  rw [← hk1] at e1
  have hh : handleRecord env record k0 = (.ok (), k1) := by
    unfold handleRecord
    rw [Step.bind_get, hst, hrecord]
    simp only []
    rw [if_neg (by decide), ← hrecord]
    exact e1
  refine ⟨g, k0, hb, hsend, hst, hx, fun k hk => ?_⟩
  have hk := (feed_of hraw hh).symm.trans hk
  obtain ⟨ws, hi, hpl⟩ := plain_of hr
  rw [feed_ccs env hi k1 (by unfold Begun; rw [hk1]; simp)] at hk
  obtain ⟨w1, _, rfl, p1, w2, _, rfl, p2, w3, _, rfl, p3, w4, _, rfl, p4, rfl⟩ := hpl
  have told1 : ∀ (m : Msg) (h h' : ClientHandshake), handleMessage env m.hs h = (.ok (), h') → told env [m] h = (.ok (), h') := by
    intro m h h' hm
    unfold told
    exact Step.bind_of_ok hm
  have st1 : k1.state = .encryptedExtensions := by rw [hk1]
  obtain ⟨r1, q1, a1, b1, c1⟩ := encrypted_of (env := env) (ms := [(.encryptedExtensions, eb)]) (h := k1) (p := p) hx (by rw [hk1]; rfl) hprot (by norm_num) (by simpa using p1)
    (by rw [st1]; decide) (by rw [st1]; decide)
  rw [told1 _ _ _ (extensions_of (t := x.t) (m := x.hellos) (by exact st1) (by rw [hk1]))] at c1
  have hk := (feed_of a1 c1).symm.trans hk
  obtain ⟨k2, hk2⟩ : ∃ k2 : ClientHandshake, k2 = { ({ k1 with stream := k1.stream.setProtection (some q1) } : ClientHandshake) with
      tshash := some (ts x.t (x.hellos ++ Msg.raw (.encryptedExtensions, eb))), state := .clientCertificateRequest } := ⟨_, rfl⟩
  have hk : feed env [w2, w3, w4] k2 = (.ok (), k) := by rw [hk2]; exact hk
  have st2 : k2.state = .clientCertificateRequest := by rw [hk2]
  obtain ⟨r2, q2, a2, b2, c2⟩ := encrypted_of (env := env) (ms := [(.certificate, cb)]) (h := k2) (p := q1) hx (by rw [hk2]; rfl) b1 (by norm_num) (by simpa using p2)
    (by rw [st2]; decide) (by rw [st2]; decide)
  rw [told1 _ _ _ (certificate_of (t := x.t) (m := x.hellos ++ Msg.raw (.encryptedExtensions, eb)) (cert := cert) (by exact Or.inl st2) (by rw [hk2]) hc)] at c2
  have hk := (feed_of a2 c2).symm.trans hk
  obtain ⟨k3, hk3⟩ : ∃ k3 : ClientHandshake, k3 = { ({ k2 with stream := k2.stream.setProtection (some q2) } : ClientHandshake) with
      tshash := some (ts x.t (x.hellos ++ Msg.raw (.encryptedExtensions, eb) ++ Msg.raw (.certificate, cb))), serverCert := some cert, state := .serverCertificateVerify } := ⟨_, rfl⟩
  have hk : feed env [w3, w4] k3 = (.ok (), k) := by rw [hk3]; exact hk
  have st3 : k3.state = .serverCertificateVerify := by rw [hk3]
  obtain ⟨r3, q3, a3, b3, c3⟩ := encrypted_of (env := env) (ms := [(.certificateVerify, vb)]) (h := k3) (p := q2) hx (by rw [hk3]; rfl) b2 (by norm_num) (by simpa using p3)
    (by rw [st3]; decide) (by rw [st3]; decide)
  rw [told1 _ _ _ (certificateVerify_bad (t := x.t) (cert := cert) (by exact st3) (by rw [hk3]) (by rw [hk3]) e2 e3 e4 e5)] at c3
  have hk := (feed_of a3 c3).symm.trans hk
  obtain ⟨k4, hk4⟩ : ∃ k4 : ClientHandshake, k4 = { ({ k3 with stream := k3.stream.setProtection (some q3) } : ClientHandshake) with
      state := .finishWithError .badCertificate } := ⟨_, rfl⟩
  have hk : feed env [w4] k4 = (.ok (), k) := by rw [hk4]; exact hk
  have st4 : k4.state = .finishWithError .badCertificate := by rw [hk4]
  obtain ⟨r4, q4, a4, b4, c4⟩ := encrypted_of (env := env) (ms := [(.finished, fb)]) (h := k4) (p := q3) hx (by rw [hk4]; rfl) b3 (by norm_num) (by simpa using p4)
    (by rw [st4]; decide) (by rw [st4]; decide)
  rw [feed, Step.bind_lift_ok a4] at hk
  obtain ⟨_, k5, h5, _⟩ := Step.bind_ok.1 hk
  rw [c4] at h5
  unfold told at h5
  obtain ⟨_, k6, h6, _⟩ := Step.bind_ok.1 h5
  exact finish_bad (e := .badCertificate) (by exact st4) k6 h6

/-- A client whose server's CertificateVerify message does not verify does not hand out a stream. -/
theorem refused {env : ClientEnv} {rng : List Bytes} {n : Int} {ch sh shRec : Bytes} {x : Params} {cert : Certificate} {records : List Bytes}
    {eb cb vb fb : Bytes} {sig : Signature} {size : Nat} (ho : Offered env rng n ch) (ha : ServerAnswered x n ch sh) (hrec : Tls13.IsRecord 22#8 sh shRec) (hl : x.hellos.length < 2 ^ 53)
    (hc : Certificate.fromHello env.now cb = .ok [cert])
    (e2 : (slice vb 0 2 : Res TlsError Bytes) = .ok [0x04#8, 0x03#8]) (e3 : Signature.fromDer (vb.drop 4) = .ok (sig, size)) (e4 : 4 ≤ vb.length)
    (e5 : cert.isCertificateValid sig (ts x.t (x.hellos ++ Msg.raw (.encryptedExtensions, eb) ++ Msg.raw (.certificate, cb))) (ascii "server") = .ok false)
    (hr : Tls13.ProtectedFlight (aead x.c) (x.sess.key .server) (x.sess.iv .server) 0
      [Msg.raw (.encryptedExtensions, eb), Msg.raw (.certificate, cb), Msg.raw (.certificateVerify, vb), Msg.raw (.finished, fb)] records)
    (hd : (shRec :: records).flatten.length ≤ 2048) (more : List Bytes) (s : TlsStream) (h : Option ClientHandshake) :
    ClientConnection.connect env rng ⟨(shRec :: records).flatten :: more, [], []⟩ ≠ (.ok s, h) := by
  obtain ⟨g, k0, hb, hsend, hst, hx, hfeed⟩ := refused_feed ho ha hrec hl hc e2 e3 e4 e5 hr
  have hall : ∀ w ∈ shRec :: records, Tls13.WholeRecord w := by
    intro w hw
    rcases List.mem_cons.1 hw with rfl | hw
    · exact NoAlert.whole ⟨22#8, sh, by decide, hrec⟩
    · obtain ⟨t, c, ht, hr⟩ := flight_whole hx hr (by norm_num) w hw
      exact NoAlert.whole ⟨t, c, by rcases ht with rfl | rfl <;> decide, hr⟩
  have hi : Idle k0 := by
    have := hello_idle env (first n g) ⟨rfl, rfl, rfl⟩
    rwa [hsend] at this
  rw [connect_eq env hb]
  intro hok
  have hok := (Prod.mk.inj hok).1
  have hdo : ∀ k', doHandshake env (withReads ((shRec :: records).flatten :: more) (first n g)) ≠ (.ok (), k') := by
    intro k' hk'
    rw [run_reads env hsend, read_step env (rest := more) _ (withReads ((shRec :: records).flatten :: more) k0) hall (by simp) hd rfl (by
      show k0.state ≠ _
      rw [hst]; simp)] at hk'
    have ha : Alike [] more k0 (withReads more k0) := withReads_alike hi
    obtain ⟨h1, h2⟩ := feed_rel env (shRec :: records) _ _ ha
    obtain ⟨_, k1, hk1, _⟩ := Step.bind_ok.1 hk'
    have hk1 : feed env (shRec :: records) (withReads more k0) = (.ok (), k1) := hk1
    rw [hk1] at h1
    exact hfeed (feed env (shRec :: records) k0).2 (Prod.ext h1 rfl)
  unfold conclude doHandshakeWithError at hok
  rcases hd' : doHandshake env (withReads ((shRec :: records).flatten :: more) (first n g)) with ⟨_ | e | _, k'⟩
  · exact hdo _ hd'
  · rw [hd'] at hok
    simp only [] at hok
    split_ifs at hok
    · rw [Step.bind_eq] at hok
      rcases hw : onStream (fun t => t.writeAlert e) k' with ⟨_ | _ | _, k''⟩
      · rw [hw] at hok; cases hok
      · rw [hw] at hok; cases hok
      · rw [hw] at hok; cases hok
    · cases hok
  · rw [hd'] at hok
    cases hok

end ClientProof

open ATLS.Model ATLS.Spec FlowProof PairProof

namespace PairProof

/-- The example client, and the example server with the signing nonce 379. -/
def plainClient : ClientEnv := exampleClient (some (ascii "anothertls.local"))
def shortServer : ServerEnv := { exampleServer none (some (ascii "anothertls.local")) with nonces := [379] }

/-- The messages through the server's Certificate message. -/
def shortMessages (a b : Bytes) : Bytes :=
  Tls13.handshakeMessage 1#8 (Tls13.clientOffer (zeros 32) (zeros 32) a (some (ascii "anothertls.local"))).bytes ++
    Tls13.handshakeMessage 2#8 (Tls13.ServerHelloMsg.mk (zeros 32) (zeros 32) 0x1303 [.keyShare (29, b), .supportedVersions 0x0304]).bytes ++
    encryptedExtensions ++ certificateMsg ⟨Spec.X509.certificate ownTbs ownR ownS, none⟩

def shortDigest : Bytes := beBytes 32 0x8723eb1e773aa5bf423dfd2b4377173567b9a00b79582e4f7da71081d4c0f13b

theorem short_hash : Sha2.sha256 (shortMessages (publicShare 256) (publicShare 257)) = beBytes 32 0xd951f740998db5a332a092e9b88ef6f51e4fe2da4d031a052f70a347f5b5c59a := by
  rw [publicShare_n, publicShare_n, ← (C06_sha256_fips _ (by decide +kernel)).1]
  decide +kernel

theorem short_digest : Sha2.sha256 (Tls13.verifyContent .server (Sha2.sha256 (shortMessages (publicShare 256) (publicShare 257)))) = shortDigest := by
  rw [short_hash, ← (C06_sha256_fips _ (by decide +kernel)).1]
  decide +kernel

def shortS : Int := 0x7cba44068f4333b71e4fb5f7ecc66dec833e0fd3f4cc78930c2a69f59e3bf597
def shortR : Int := 0x5543894af3d00ed7d740abdbd75c96b06877b787db5f70eea78b90a8d7c00a
def shortDer : Bytes := beBytes 70 0x304402205543894af3d00ed7d740abdbd75c96b06877b787db5f70eea78b90a8d7c00a0002207cba44068f4333b71e4fb5f7ecc66dec833e0fd3f4cc78930c2a69f59e3bf597

theorem short_signed : Ecdsa.sign [379] ownKey shortDigest = .ok (some ⟨shortS, shortR⟩) := by decide +kernel
theorem short_der : Signature.toDer ⟨shortS, shortR⟩ = .ok shortDer := by decide +kernel
theorem short_read : Signature.fromDer shortDer = .ok (⟨shortS, 256 * shortR⟩, 70) := by decide +kernel
theorem short_refused : Ecdsa.verify ⟨⟨0x6eed2bfee88db30f90001b34f24ad85a96aedc7c01d175f81d6da2a3d96f29c8,
    0x6d5e14735b63f2d579e067b503bb42c1d934f5b7316fa57a13d0454577d194e5⟩, .secp256r1⟩ ⟨shortS, 256 * shortR⟩ shortDigest = .ok false := by decide +kernel

theorem sha256_H (m : Bytes) : (rfcHash .sha256).H m = Sha2.sha256 m := rfl

theorem short_valid {x : Model.X509} (hx : Identity (Spec.X509.certificate ownTbs ownR ownS) ownKey june2023 x) :
    Certificate.isCertificateValid ⟨Spec.X509.certificate ownTbs ownR ownS, some x⟩ ⟨shortS, 256 * shortR⟩ (ts .sha256 (shortMessages (publicShare 256) (publicShare 257)))
      (ascii "server") = .ok false := by
  obtain ⟨pk, h1, h2⟩ := hx.public_
  have hpk := Res.ok.inj (h1.symm.trans ownKey_public)
  have hlen : (shortMessages (publicShare 256) (publicShare 257)).length < 2 ^ 53 := by
    rw [publicShare_n, publicShare_n]
    decide +kernel
  have hc := CertProof.content_eq (ts .sha256 (shortMessages (publicShare 256) (publicShare 257))) .server
  have hl := CertProof.finalize_le (ts .sha256 (shortMessages (publicShare 256) (publicShare 257)))
  rw [ts_finalize .sha256 _ hlen] at hc hl
  have hc' : Certificate.verifyContent (ts .sha256 (shortMessages (publicShare 256) (publicShare 257))) (ascii "server") =
      Tls13.verifyContent .server (Sha2.sha256 (shortMessages (publicShare 256) (publicShare 257))) := by
    rw [← sha256_H]
    exact hc
  rw [sha256_H] at hl
  have hd : Model.sha256 (Certificate.verifyContent (ts .sha256 (shortMessages (publicShare 256) (publicShare 257))) (ascii "server")) = shortDigest := by
    rw [hc', (C06_sha256_fips _ (by
      simp only [Tls13.verifyContent, List.length_append, List.length_replicate, CertProof.context_length, List.length_singleton]
      omega)).1]
    exact short_digest
  unfold Certificate.isCertificateValid
  simp only [Res.unwrap, Res.ok_bind, h2, hd, hpk, short_refused]
  rfl

/-- The two ends with these random values: the conditions of C60 without its bounds on the numbers hold, the server answers the client's hello,
and the client refuses the answer. -/
theorem short_run : ∃ (q : Draws) (answer : Bytes), Matching plainClient shortServer ∧
    q.From shortServer [zeros 100, zeros 100, zeros 100] [zeros 100, oneRead, zeros 100] ∧ Signed (fun _ => True) q plainClient shortServer ∧
    answer ≠ [] ∧ answer.length ≤ 2048 ∧
    (∀ hello h h', ClientConnection.connect plainClient [zeros 100, zeros 100, zeros 100] ⟨[], [], []⟩ = (.err .brokenPipe, some h) → h.stream.stream.written = hello →
      ServerConnection.accept shortServer [zeros 100, oneRead, zeros 100] ⟨[hello], [], []⟩ = (.err .brokenPipe, h') → h'.stream.stream.written = answer) ∧
    ∀ more s h, ClientConnection.connect plainClient [zeros 100, zeros 100, zeros 100] ⟨answer :: more, [], []⟩ ≠ (.ok s, h) := by
  obtain ⟨x509, hid, hsg⟩ := own_identity
  have hm0 := example_matching x509 hid hsg none (.inl rfl)
  have hm : Matching plainClient shortServer := ⟨hm0.prng, hm0.name, hm0.utf8, hm0.size, hm0.server, hm0.auth, hm0.other⟩
  obtain ⟨sec, hsec, _⟩ := secret_total (n := 256) (by norm_num) (by norm_num) (publicShare_length 257)
  obtain ⟨q, hqd⟩ : ∃ q : Draws, q = ⟨256, zeros 32, zeros 32, zeros 32, 257, zeros 32, sec⟩ := ⟨_, rfl⟩
  have hq : q.From shortServer [zeros 100, zeros 100, zeros 100] [zeros 100, oneRead, zeros 100] := by
    rw [hqd]
    exact ⟨⟨_, _, _, example_between.1, rfl, rfl⟩, ⟨_, _, _, rfl, example_between.2, fun _ => rfl⟩, hsec⟩
  have hk1 : q.clientKey = 256 := by rw [hqd]
  have hk2 : q.serverKey = 257 := by rw [hqd]
  have hpres : q.presented plainClient shortServer = shortMessages (publicShare 256) (publicShare 257) := by
    rw [hqd]
    simp [Draws.presented, shortMessages, Draws.clientHello, Draws.serverHello, Draws.requests, shortServer, exampleServer, plainClient, exampleClient]
  have hdig : Sha2.sha256 (Tls13.verifyContent .server ((q.params plainClient).sess.hash.H (q.presented plainClient shortServer))) = shortDigest := by
    have hH : ∀ m, (q.params plainClient).sess.hash.H m = Sha2.sha256 m := fun _ => rfl
    rw [hpres, hH]
    exact short_digest
  have hsigned : Signed (fun _ => True) q plainClient shortServer := by
    refine ⟨⟨fun k hk => ?_, ⟨shortS, shortR⟩, ?_, trivial, trivial⟩, fun flight ca cert key h => by cases h⟩
    · rw [List.mem_singleton.1 hk]; decide
    · rw [hdig]; exact short_signed
  obtain ⟨⟨rng, hans, _⟩, hsans, hshl⟩ := answered hq hm (hk1 ▸ example_shares.1) (hk2 ▸ example_shares.2)
  have ho := offered (ce := plainClient) hq
  obtain ⟨x, hx⟩ : ∃ x, x = q.params plainClient := ⟨_, rfl⟩
  obtain ⟨ch, hch⟩ : ∃ ch, ch = q.clientHello plainClient := ⟨_, rfl⟩
  obtain ⟨sh, hsh⟩ : ∃ sh, sh = q.serverHello := ⟨_, rfl⟩
  have hlch : ch.length ≤ 4000 := by
    rw [hch, hqd]
    show (Tls13.handshakeMessage 1#8 (Tls13.clientOffer (zeros 32) (zeros 32) (publicShare 256) (some (ascii "anothertls.local"))).bytes).length ≤ 4000
    rw [publicShare_n]
    decide +kernel
  have hxh : x.hellos = ch ++ sh := by rw [hx, hch, hsh]; rfl
  have hxt : x.t = .sha256 := by rw [hx]; rfl
  have hmsgs : x.hellos ++ encryptedExtensions ++ certificateMsg shortServer.config.cert = shortMessages (publicShare 256) (publicShare 257) := by
    rw [← hpres, hx]
    simp [Draws.presented, Draws.params, Draws.requests, shortServer, exampleServer]
  rw [← hx, ← hch, ← hsh] at hans hsans
  rw [← hch] at ho
  rw [← hsh] at hshl
  have hcr : Tls13.IsRecord 22#8 ch (Tls13.plainRecord 22#8 ch) := ⟨3#8, 3#8, by omega, rfl⟩
  have hsr : Tls13.IsRecord 22#8 sh (Tls13.plainRecord 22#8 sh) := ⟨3#8, 3#8, by omega, rfl⟩
  have hccs : Tls13.IsRecord 20#8 [1#8] (Tls13.plainRecord 20#8 [1#8]) := ⟨3#8, 3#8, by decide, rfl⟩
  have hpl : ∀ (t : Byte) (c : Bytes), (Tls13.plainRecord t c).length = c.length + 5 := by
    intro t c
    simp [Tls13.plainRecord, beBytes_length]
    omega
  obtain ⟨vb, hvb⟩ : ∃ vb, vb = Tls13.certificateVerifyMessage 0x0403 shortDer := ⟨_, rfl⟩
  obtain ⟨flight, hfl⟩ : ∃ flight, flight = [encryptedExtensions, certificateMsg shortServer.config.cert, Tls13.handshakeMessage 15#8 vb,
    x.sess.finished .server (x.hellos ++ ([encryptedExtensions, certificateMsg shortServer.config.cert, Tls13.handshakeMessage 15#8 vb]).flatten)] := ⟨_, rfl⟩
  have hflight : ServerFlight shortServer x none flight := by
    refine ⟨[], Tls13.handshakeMessage 15#8 vb, ⟨rfl, rfl⟩, ⟨⟨shortS, shortR⟩, shortDer, ?_, short_der, by rw [hvb]⟩, hfl⟩
    have : x.hellos ++ ([encryptedExtensions] ++ [] ++ [certificateMsg shortServer.config.cert]).flatten = q.presented plainClient shortServer := by
      rw [hpres, ← hmsgs]
      simp
    rw [this, hx, hdig]
    exact short_signed
  have hdrawn : Drawn shortServer rng none := rfl
  have hxok : x.Ok := by
    obtain ⟨_, _, h, _⟩ := ServerProof.server_first hm.prng (by have := hm.size; omega) hcr (by omega) hans hdrawn hflight
    exact h
  obtain ⟨hs1, swire, a1, a2, a3⟩ := C75_server_flight_first shortServer _ ⟨x, Tls13.plainRecord 22#8 ch, ch, sh, Tls13.plainRecord 20#8 [1#8], [], flight⟩ rng
    none hm.prng (by have := hm.size; omega) hcr hans hdrawn hflight (by simp only [hpl]; omega)
  simp only [] at a1 a2 a3
  have lcm : (certificateMsg shortServer.config.cert).length ≤ 700 := by
    show (certificateMsg ⟨Spec.X509.certificate ownTbs ownR ownS, none⟩).length ≤ 700
    decide +kernel
  have lcv : (Tls13.handshakeMessage 15#8 vb).length = 78 := by
    rw [hvb]; decide +kernel
  have lee : encryptedExtensions.length = 6 := rfl
  have lfin : (x.sess.finished .server (x.hellos ++ ([encryptedExtensions, certificateMsg shortServer.config.cert, Tls13.handshakeMessage 15#8 vb]).flatten)).length ≤ 52 := by
    apply finished_le
    simp only [List.length_append, hxh, List.length_flatten, List.map_cons, List.map_nil, List.sum_cons, List.sum_nil]
    omega
  have hflen : ∀ m ∈ flight, m.length ≤ 700 := by
    intro m hm'
    rw [hfl] at hm'
    simp only [List.mem_cons, List.not_mem_nil, or_false] at hm'
    rcases hm' with rfl | rfl | rfl | rfl <;> omega
  obtain ⟨ws, b1, b2, b3⟩ := sent_flight hxok a2 (by rw [hfl]; simp) (fun m hm' => by have := hflen m hm'; omega)
  have hwsl : ws.flatten.length ≤ 1000 := by
    rw [hfl] at b3
    obtain ⟨w1, _, l1, t1, rfl⟩ := List.forall₂_cons_right_iff.1 b3
    obtain ⟨w2, _, l2, t2, rfl⟩ := List.forall₂_cons_right_iff.1 t1
    obtain ⟨w3, _, l3, t3, rfl⟩ := List.forall₂_cons_right_iff.1 t2
    obtain ⟨w4, _, l4, t4, rfl⟩ := List.forall₂_cons_right_iff.1 t3
    rw [List.forall₂_nil_right_iff.1 t4]
    simp only [List.length_flatten, List.map_cons, List.map_nil, List.sum_cons, List.sum_nil]
    omega
  have hlen : (Tls13.plainRecord 22#8 sh :: Tls13.plainRecord 20#8 [1#8] :: ws).flatten.length ≤ 2048 := by
    simp only [List.flatten_cons, List.length_append, hpl, List.length_singleton]
    omega
  refine ⟨q, (Tls13.plainRecord 22#8 sh :: Tls13.plainRecord 20#8 [1#8] :: ws).flatten, hm, hq, hsigned, ?_, hlen, ?_, ?_⟩
  · intro h0
    have := congrArg List.length h0
    simp only [List.flatten_cons, List.length_append, hpl, List.length_nil] at this
    omega
  · intro hello h h' e1 e2 e3
    obtain ⟨h0, f1, f2⟩ := C76_client_hello_first plainClient _ q.clientKey ch ho
    rw [e1] at f1
    obtain rfl := Option.some.inj (Prod.mk.inj f1).2
    rw [f2] at e2
    rw [← e2] at e3
    rw [a1] at e3
    rw [← (Prod.mk.inj e3).2, a3, b1]
    simp [List.append_assoc]
  · intro more s h
    refine ClientProof.refused (fb := _) (eb := [0#8, 0#8]) (cb := Tls13.certificateMessage [] [(Spec.X509.certificate ownTbs ownR ownS, [])]) (vb := vb) ho hsans hsr
      (by rw [hxh, List.length_append]; omega) (presented_of hid [] (by simp) (by decide +kernel)) (by rw [hvb]; decide +kernel)
      (sig := ⟨shortS, 256 * shortR⟩) (size := 70) (by rw [hvb]; exact short_read) (by rw [hvb]; decide +kernel) ?_
      (.ccs _ _ _ _ _ hccs (by rw [hfl] at b2; exact b2)) hlen more s h
    have : x.hellos ++ ClientProof.Msg.raw (.encryptedExtensions, [0#8, 0#8]) ++
        ClientProof.Msg.raw (.certificate, Tls13.certificateMessage [] [(Spec.X509.certificate ownTbs ownR ownS, [])]) =
        shortMessages (publicShare 256) (publicShare 257) := hmsgs
    rw [hxt, this]
    exact short_valid hid

end PairProof

/-- C60 in full does not hold: with the nonce 379 the number `r` of the server's signature has 31 bytes, and the client refuses the signature. -/
theorem C60_false : ¬ C60_statement := by
  intro h
  obtain ⟨q, answer, hm, hq, hs, _, hl, hans, hno⟩ := short_run
  obtain ⟨hello, fromServer, fromClient, c, kc, ks, _, _, ⟨h1, e1, e2⟩, ⟨h2, e3, e4⟩, hcl, _⟩ := h _ _ _ _ q hm hq trivial trivial hs
  have ha := hans hello h1 h2 e1 e2 e3
  rw [e4] at ha
  by_cases hne : fromServer = []
  · subst hne
    obtain ⟨s, h', p, hok, _⟩ := hcl [] .done
    rw [e1] at hok
    cases (Prod.mk.inj hok).1
  obtain ⟨s, h', p, hok, _⟩ := hcl [fromServer.flatten] (Tls13.Delivers.pieces ⟨[fromServer], by simp, rfl, by
    intro g hg
    rw [List.mem_singleton.1 hg]
    exact ⟨hne, by rw [ha]; exact hl⟩⟩)
  rw [ha] at hok
  exact hno [] s h' hok

/-- C77 in full does not hold, for the same reason: no session can begin. -/
theorem C77_false : ¬ C77_statement := by
  intro h
  obtain ⟨q, answer, hm, hq, hs, hne, hl, hans, hno⟩ := short_run
  obtain ⟨hello, fromServer, fromClient, up, down, ⟨h1, e1, e2⟩, ⟨h2, e3, e4⟩, _, ⟨inS, hinS⟩, hcl⟩ := h _ _ _ _ q hm hq trivial trivial hs 0 [] [] (by simp [Op.payloads])
    (by simp [Op.reads]) (by simp [Op.reads]) (by norm_num)
  have ha := hans hello h1 h2 e1 e2 e3
  rw [e4] at ha
  obtain ⟨b, hb1, hb2⟩ : ∃ b : List Bytes, b.flatten = down.flatten ∧ ∀ x ∈ b, x ≠ [] := by
    by_cases hd : down.flatten = []
    · exact ⟨[], hd.symm, by simp⟩
    · exact ⟨[down.flatten], by simp, by simpa using hd⟩
  obtain ⟨c, hc, s, hs', c', s', hok, _⟩ := hcl (answer :: b) inS ⟨[answer], b, rfl, by simp [ha], hb1, by
    intro x hx
    rcases List.mem_cons.1 hx with rfl | hx
    · exact hne
    · exact hb2 x hx⟩ hinS
  exact hno b c hc hok

end ATLS
