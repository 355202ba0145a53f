import Verif.Proof.Rfc
import Verif.Props.PairExample
import Verif.Props.TransportDefs
/-
C82: the client completes the handshake with every server that follows RFC 8446. Unlike in C76, the server is described by `Spec.Tls13.Server`, without
any function of the library.
-/
namespace ATLS
open ATLS.Model ATLS.Spec FlowProof RfcProof

/-- How the client has to answer the certificate requests, by RFC 8446 section 4.4.2 and 4.4.3: not at all without a request; with an empty Certificate
message if it has no certificate; else with its certificate and a signature of its key over the transcript. `messages`: the transcript so far. -/
def ClientProof (env : ClientEnv) (session : Tls13.Session) (messages : Bytes) (requests auth : List Bytes) : Prop :=
  match requests with
  | [] => auth = []
  | request :: _ => ∃ cm, cm = Tls13.ownCertificate (Tls13.requestContext request) (env.config.clientCert.map Certificate.raw) ∧
    if env.config.clientCert = none then auth = [cm] else
      ∃ (key : PrivateKey) (r s : Nat), env.config.clientKey = some key ∧
        Spec.Ecdsa.Accepts (P256.coords (key.secret • P256.G)) r s
          (Spec.Ecdsa.hashInt (Sha2.sha256 (Tls13.verifyContent .client (session.hash.H (messages ++ cm))))) ∧
        auth = [cm, Tls13.handshakeMessage 15#8 (Tls13.certificateVerifyMessage 0x0403 (Der.ecdsaSig r s))]

/-- The client is able to answer: a client with a certificate (of a size that one record can hold) has a P-256 key, and if it is asked then the
nonces suffice to sign, with numbers that satisfy `S`. -/
def Able (S : Int → Prop) (env : ClientEnv) (session : Tls13.Session) (messages : Bytes) (requests : List Bytes) : Prop :=
  ∀ cert, env.config.clientCert = some cert → cert.raw.length ≤ 16000 ∧ ∃ key, env.config.clientKey = some key ∧ key.curve = .secp256r1 ∧
    ¬ (P256.n : Int) ∣ key.secret ∧ ∀ request ∈ requests,
      Signs S env.nonces key (Tls13.verifyContent .client (session.hash.H (messages ++ Tls13.ownCertificate (Tls13.requestContext request) (some cert.raw))))

/-- C82 for the signatures satisfying `S` and the servers satisfying `P`: with three reads of 100 bytes from the random source, and a server name of
at most 16000 bytes if there is one, the client draws a
private key, a random value and a session id; it sends a ClientHello made of them before it reads anything; and with every server that follows RFC 8446 in the answer to
that ClientHello, however the records of the server (and further records, except alerts) are grouped into reads of at most 2048 bytes, it completes the
handshake: it sends its flight, protected with the client's handshake traffic key, and ends with the application traffic keys. -/
def C82_for (S : Int → Prop) (P : ClientEnv → Tls13.Server → Bytes → List Bytes → Prop) : Prop :=
  ∀ (env : ClientEnv) (b1 b2 b3 : Bytes) (rest : List Bytes), b1.length = 100 → b2.length = 100 → b3.length = 100 →
    (∀ a, env.config.serverName = some a → a.length ≤ 16000) →
    ∃ (n : Int) (key random sid ch : Bytes) (rng1 rng2 rng3 : Rng),
      ((Rng.urandom (b1 :: b2 :: b3 :: rest)).between 1 32 : Res TlsError (Int × Rng)) = .ok (n, rng1) ∧ key = scalarBytes n ∧
      (rng1.bytes 32 : Res TlsError (Bytes × Rng)) = .ok (random, rng2) ∧ (rng2.bytes 32 : Res TlsError (Bytes × Rng)) = .ok (sid, rng3) ∧
      key.length = 32 ∧ random.length = 32 ∧ sid.length = 32 ∧
      ch = Tls13.handshakeMessage 1#8 (Tls13.clientOffer random sid (Tls13.x25519Public key) env.config.serverName).bytes ∧
      (∃ h, ClientConnection.connect env (b1 :: b2 :: b3 :: rest) ⟨[], [], []⟩ = (.err .brokenPipe, some h) ∧
        h.stream.stream.written = Tls13.plainRecord 22#8 ch) ∧
      ∀ (v : Tls13.Server) (session : Tls13.Session) (messages shRec : Bytes) (records tail incoming : List Bytes),
        session = v.session ch sid (Tls13.x25519Public key) → messages = v.transcript ch sid (Tls13.x25519Public key) →
        v.Follows ch sid (Tls13.x25519Public key) env.now → v.Sends ch sid (Tls13.x25519Public key) shRec records →
        Able S env session messages v.requests → P env v (Tls13.x25519Public key) records →
        (∀ w ∈ tail, NoAlert w) → Tls13.Pieces 2048 [] (shRec :: (records ++ tail)) incoming →
        ∃ s h auth cwire, ClientConnection.connect env (b1 :: b2 :: b3 :: rest) ⟨incoming, [], []⟩ = (.ok s, h) ∧
          ClientProof env session messages v.requests auth ∧
          Tls13.Sent v.suite.protect (session.key .client) (session.iv .client) 0 (auth ++ [session.finished .client (messages ++ auth.flatten)]) cwire ∧
          s.stream.written = Tls13.plainRecord 22#8 ch ++ cwire ∧ 
          Transport v.code v.suite s (session.appSecret messages .client) (session.appSecret messages .server)

/-- The guard of `C82_client_partial`: neither the server's public value nor the secret starts with a zero byte; the dates of the certificate are from
1970 on and it is not the last day of a certificate that ends after February of a leap year; the certificate is shorter than 64 KiB; a client that is asked for a certificate has one; with
ChaCha20-Poly1305 no record has a plaintext whose length is a multiple of 64, on either side. -/
structure HandledServer (env : ClientEnv) (v : Tls13.Server) (share : Bytes) (records : List Bytes) : Prop where
  publicValue : (Tls13.x25519Public v.key).getD 0 0 ≠ 0
  secret : (X25519.x25519 v.key share).getD 0 0 ≠ 0
  dates : GoodDates v.proof.leaf env.now
  size : v.proof.leaf.der.length < 2 ^ 16
  certificate : v.requests ≠ [] → env.config.clientCert ≠ none
  records : v.code = 0x1303 → ∀ w ∈ records, w.length % 64 ≠ 21
  own : v.code = 0x1303 → ∀ request ∈ v.requests, ∀ cert, env.config.clientCert = some cert →
    (Tls13.ownCertificate (Tls13.requestContext request) (some cert.raw)).length % 64 ≠ 63

/-- C82 in full. -/
def C82_statement : Prop := C82_for (fun _ => True) (fun _ _ _ _ => True)

namespace RfcProof

theorem sha_length {content : Bytes} (h : content.length < 2 ^ 50) : (Sha2.sha256 content).length = 32 := by
  have := C06_sha256_fips content (by omega)
  rw [← this.1]
  exact this.2

/-- A signature of the library as an ECDSA signature with its DER encoding. -/
theorem signed_rfc {nonces : List Int} {key : PrivateKey} {content : Bytes} (hc : key.curve = .secp256r1) (hd : ¬ (P256.n : Int) ∣ key.secret)
    (hl : content.length < 2 ^ 50) (h : Signs (fun v => 2 ^ 248 ≤ v) nonces key content) :
    ∃ r s : Nat, Ecdsa.sign nonces key (Sha2.sha256 content) = .ok (some ⟨s, r⟩) ∧ (⟨s, r⟩ : Signature).toDer = .ok (Der.ecdsaSig r s) ∧
      Spec.Ecdsa.Accepts (P256.coords (key.secret • P256.G)) r s (Spec.Ecdsa.hashInt (Sha2.sha256 content)) ∧
      2 ^ 248 ≤ r ∧ 2 ^ 248 ≤ s := by
  obtain ⟨hn, sig, h1, h2, h3⟩ := h
  obtain ⟨curve, d⟩ := key
  simp only at hc hd
  subst hc
  obtain ⟨pk, e1, e2, g1, g2, g3, g4⟩ := C29_sign_verify d hd _ nonces hn sig h1
  obtain ⟨s, r⟩ := sig
  simp only at h2 h3 g1 g2 g3 g4
  obtain ⟨r', rfl⟩ := Int.eq_ofNat_of_zero_le (show 0 ≤ r by omega)
  obtain ⟨s', rfl⟩ := Int.eq_ofNat_of_zero_le (show 0 ≤ s by omega)
  have hder := (C31_der_partial r' s' (by omega) (by exact_mod_cast g2) (by omega) (by exact_mod_cast g4) (by exact_mod_cast h2) (by exact_mod_cast h3)).1
  have hpk : (⟨.secp256r1, d⟩ : PrivateKey).getPublicKey = .ok ⟨EcdsaProof.pt (d • P256.G), .secp256r1⟩ := by
    unfold PrivateKey.getPublicKey
    simp only [EcdsaProof.g_eq, EcdsaProof.multiply_eq, Res.ok_bind]
  rw [hpk] at e1
  cases e1
  have hr := EcdsaProof.coords_range (d • P256.G)
  obtain ⟨ans, f1, f2⟩ := C30_fips (P256.coords (d • P256.G)).1 (P256.coords (d • P256.G)).2 s' r' hr.1 hr.2.2.1 (Sha2.sha256 content)
    (le_of_eq (sha_length hl))
  have : ans = true := by
    have := f1.symm.trans e2
    exact Res.ok.inj this
  exact ⟨r', s', h1, hder, f2.1 this, by exact_mod_cast h2, by exact_mod_cast h3⟩

theorem context_of {request : Bytes} (h : Tls13.IsCertificateRequest request) : ∃ extensions : Bytes, (Tls13.requestContext request).length < 256 ∧
    request = beBytes 1 (Tls13.requestContext request).length ++ Tls13.requestContext request ++ beBytes 2 extensions.length ++ extensions := by
  obtain ⟨context, exts, h1, _, list, _, _, h2⟩ := h
  have : Tls13.requestContext request = context := by
    rw [h2]
    unfold Tls13.requestContext
    have e : beBytes 1 context.length = [BitVec.ofNat 8 context.length] := HelloProof.beBytes1 _
    rw [e]
    simp only [List.append_assoc]
    show (context ++ (beBytes 2 list.length ++ list)).take (BitVec.ofNat 8 context.length).toNat = context
    exact List.take_left' (by simp; omega)
  exact ⟨list, by rw [this]; exact h1, by rw [this]; exact h2⟩

theorem intLen_ge {n : Nat} (h : 2 ^ 248 ≤ n) : 32 ≤ Der.intLen n := by
  unfold Der.intLen
  have : 248 ≤ n.log2 := (Nat.le_log2 (by have := Nat.two_pow_pos 248; omega)).2 h
  omega

theorem sig_length {r s : Nat} (hr : r < 2 ^ 256) (hs : s < 2 ^ 256) : (Der.ecdsaSig r s).length = 6 + Der.intLen r + Der.intLen s := by
  have h1 := intLen_le hr
  have h2 := intLen_le hs
  have tl : ∀ (t : Byte) (b : Bytes), b.length ≤ 100 → (Der.tlv t b).length = b.length + 2 := by
    intro t b hb
    unfold Der.tlv Der.length
    rw [if_pos (by omega)]
    simp
  unfold Der.ecdsaSig Der.sequence Der.integer
  have e1 := tl 0x02#8 (beBytes (Der.intLen r) r) (by rw [beBytes_length]; omega)
  have e2 := tl 0x02#8 (beBytes (Der.intLen s) s) (by rw [beBytes_length]; omega)
  rw [beBytes_length] at e1 e2
  rw [tl _ _ (by rw [List.length_append]; omega), List.length_append]
  omega

theorem verify_length {r s : Nat} (hr : r < 2 ^ 256) (hs : s < 2 ^ 256) (hr' : 2 ^ 248 ≤ r) (hs' : 2 ^ 248 ≤ s) :
    78 ≤ (Tls13.handshakeMessage 15#8 (Tls13.certificateVerifyMessage 0x0403 (Der.ecdsaSig r s))).length ∧
    (Tls13.handshakeMessage 15#8 (Tls13.certificateVerifyMessage 0x0403 (Der.ecdsaSig r s))).length ≤ 80 := by
  have h1 := sig_length hr hs
  have h2 := intLen_le hr
  have h3 := intLen_le hs
  have h4 := intLen_ge hr'
  have h5 := intLen_ge hs'
  simp only [Tls13.handshakeMessage, Tls13.certificateVerifyMessage, List.length_append, beBytes_length, List.length_singleton]
  omega

theorem own_length (context raw : Bytes) : (Tls13.ownCertificate context (some raw)).length = 13 + context.length + raw.length := by
  simp [Tls13.ownCertificate, Tls13.handshakeMessage, Tls13.certificateMessage, Tls13.certificateEntry, beBytes_length]
  omega

theorem offer_le {random sid : Bytes} (hr : random.length = 32) (hs : sid.length = 32) (n : Int) {name : Option Bytes} (hn : ∀ a, name = some a → a.length ≤ 16000) :
    (Tls13.handshakeMessage 1#8 (Tls13.clientOffer random sid (publicShare n) name).bytes).length < 2 ^ 45 := by
  have hl := HelloProof.offer_length random sid (publicShare n) name (publicShare_length _)
  unfold Tls13.handshakeMessage Tls13.ClientHelloMsg.bytes
  simp only [List.length_append, Tls13.vec2, beBytes_length, hl, List.length_singleton]
  cases name with
  | none => simp [Tls13.clientOffer, hr, hs, Tls13.u16s]
  | some a =>
    have := hn a rfl
    simp [Tls13.clientOffer, hr, hs, Tls13.u16s]
    omega

/-- A server that follows the RFC in the library's terms. -/
theorem conforming_rfc {env : ClientEnv} {reads : List Bytes} {n : Int} {sid ch : Bytes} (hoff : Offered env reads n ch) (hsid : sid.length = 32)
    (hrange : 256 ≤ n ∧ n < 2 ^ 256) (hchl : ch.length < 2 ^ 45) {v : Tls13.Server} {session : Tls13.Session} {messages shRec : Bytes} {records : List Bytes}
    (hsess : session = v.session ch sid (publicShare n)) (hmsgs : messages = v.transcript ch sid (publicShare n))
    (hf : v.Follows ch sid (publicShare n) env.now) (hsend : v.Sends ch sid (publicShare n) shRec records)
    (p1 : (Tls13.x25519Public v.key).getD 0 0 ≠ 0) (p2 : (X25519.x25519 v.key (publicShare n)).getD 0 0 ≠ 0)
    (p3 : GoodDates v.proof.leaf env.now) (p4 : v.proof.leaf.der.length < 2 ^ 16)
    (p5 : v.code = 0x1303 → ∀ w ∈ records, w.length % 64 ≠ 21) :
    ∃ x : Params, x.sess = session ∧ LibSuite v.code v.suite x.cs x.t x.c ∧ messages.length < 2 ^ 50 ∧
      ∀ auth, ClientAnswer env x messages v.requests.getLast? auth → ConformingServer env reads n x ch (v.hello sid) shRec messages auth records := by
  obtain ⟨cs, t, c, hl⟩ := lib_suite hf.suite
  obtain ⟨share, hshare⟩ : ∃ share, share = publicShare n := ⟨_, rfl⟩
  rw [← hshare] at hsess hmsgs hf hsend p2
  obtain ⟨x, hx⟩ : ∃ x : Params, x = ⟨t, cs, c, X25519.x25519 v.key share, ch ++ v.hello sid⟩ := ⟨_, rfl⟩
  have hxs : x.sess = session := by rw [hx, hsess]; exact session_eq hl
  obtain ⟨contents, hco, hpf⟩ := hsend.flight
  rw [← hsess] at hco hpf
  have hcl := ClientProof.content_le hpf
  -- the hello
  obtain ⟨hello, e1, e2, e3⟩ := server_hello_read hf hsid hl
  have hch16 : (v.hello sid).length < 2 ^ 16 := by
    obtain ⟨_, _, hlen, _⟩ := hsend.hello
    exact hlen
  have hbl : (v.helloMsg sid).bytes.length < 2 ^ 24 := by
    have := hch16
    simp only [Tls13.Server.hello, Tls13.handshakeMessage, List.length_append, beBytes_length, List.length_singleton] at this
    omega
  have hraw := fromRaw_message .serverHello (v.helloMsg sid).bytes [] hbl
  rw [List.append_nil] at hraw
  have hans : ServerAnswered x n ch (v.hello sid) := by
    refine ⟨_, hello, _, hraw, rfl, e1, e2, rfl, ?_, ?_, ?_, ?_, ?_⟩
    · rw [hx, hshare]
      exact secret_rfc (by omega) hrange.2 hf.key p1 (by rw [← hshare]; exact p2)
    · rw [hx, e3]
    · rw [hx]; exact hl.tshash
    · rw [hx]; exact hl.cipher
    · rw [hx]
  -- the flight
  have hflight : v.flight session = serverMessages x v.extensions v.requests (v.proof.certificate []) v.proof.verify := by
    unfold serverMessages Tls13.Server.flight Tls13.Server.opening
    rw [hxs]
    have : session.hellos = x.hellos := by rw [hsess, hx]; rfl
    rw [this]
    simp [opening, List.append_assoc]
  have hmm : messages = x.hellos ++ (serverMessages x v.extensions v.requests (v.proof.certificate []) v.proof.verify).flatten := by
    rw [hmsgs, ← hflight, hx, hsess]
    rfl
  have hml : messages.length < 2 ^ 50 := by
    have h5 := coalesced_le hco hcl
    have h6 : (v.flight session).length ≤ 5 := by
      have := hf.requests.1
      simp only [Tls13.Server.flight, Tls13.Server.opening, List.length_append, List.length_cons, List.length_nil, List.length_map]
      omega
    rw [hmsgs]
    unfold Tls13.Server.transcript
    rw [← hsess]
    simp only [List.length_append]
    omega
  obtain ⟨Q, hQ, hacc⟩ := hf.proof.signature
  obtain ⟨leaf, l1, l2, l3⟩ := leaf_read hf.proof.leaf hQ p4 hf.proof.period p3
  have hpres : ServerPresented env (v.proof.certificate []) ⟨v.proof.leaf.der, some leaf⟩ :=
    ⟨_, rfl, ((C70_read env.now [] (by simp)).2 _ _ _ hf.proof.size).1 leaf l1 l3⟩
  have hseen : session.hellos ++ v.opening.flatten = x.hellos ++ opening v.extensions v.requests ++ v.proof.certificate [] := by
    have : session.hellos = x.hellos := by rw [hsess, hx]; rfl
    rw [this]
    simp [Tls13.Server.opening, opening, List.append_assoc]
  have hsl : (x.hellos ++ opening v.extensions v.requests ++ v.proof.certificate []).length < 2 ^ 53 := by
    have := congrArg List.length hmm
    simp only [serverMessages, List.length_append, List.flatten_append, List.flatten_cons, List.flatten_nil, opening] at this ⊢
    omega
  have hposs : ServerPossessed x (x.hellos ++ opening v.extensions v.requests ++ v.proof.certificate []) v.proof.verify ⟨v.proof.leaf.der, some leaf⟩ := by
    refine ⟨_, rfl, verified_rfc l2 .server hsl ?_⟩
    have ht : rfcHash x.t = v.suite.hash := by rw [hx]; exact hl.hash
    rw [ht, ← hseen, hsess]
    exact hacc
  have hrec : Tls13.ProtectedFlight (aead c) (x.hsKey .server 0).key (x.hsKey .server 0).iv 0 contents records := by
    refine flight_lib (k := x.hsKey .server 0) hl (by have := hsKey_sizes x .server 0; rw [hx] at this ⊢; exact this) ?_ p5
    have e1 : (x.hsKey .server 0).key = x.sess.key .server := rfl
    have e2 : (x.hsKey .server 0).iv = x.sess.iv .server := rfl
    rw [e1, e2, hxs]
    exact hpf
  refine ⟨x, hxs, by rw [hx]; exact hl, hml, fun auth ha => ⟨hoff, hsend.hello, hans, ⟨v.extensions, v.requests, v.proof.certificate [], v.proof.verify,
    ⟨v.proof.leaf.der, some leaf⟩, contents, hpres, hposs, hmm, hml, by rw [← hflight]; exact hco, ?_, ha, fun b hb => hf.requests.2 b (List.mem_of_getLast? hb)⟩⟩⟩
  have : x.c = c := by rw [hx]
  rw [this]
  exact hrec

end RfcProof

/-- C82, proved part: under `HandledServer`, and if the numbers of the client's signature are at least 2^248. -/
theorem C82_client_partial : C82_for (fun v => 2 ^ 248 ≤ v) HandledServer := by
  intro env b1 b2 b3 rest h1 h2 h3 hname
  obtain ⟨n, hn⟩ := PairProof.between_total h1 (b2 :: b3 :: rest)
  have hr := PairProof.bytes_total h2 (b3 :: rest)
  have hs := PairProof.bytes_total h3 rest
  have hrange := NegProof.between_range hn
  have hsid : (b3.take 32).length = 32 := by rw [List.length_take]; omega
  have hrl : (b2.take 32).length = 32 := by rw [List.length_take]; omega
  obtain ⟨sid, hsid'⟩ : ∃ sid, sid = b3.take 32 := ⟨_, rfl⟩
  obtain ⟨random, hrandom⟩ : ∃ random, random = b2.take 32 := ⟨_, rfl⟩
  obtain ⟨ch, hch⟩ : ∃ ch, ch = Tls13.handshakeMessage 1#8 (Tls13.clientOffer random sid (publicShare n) env.config.serverName).bytes := ⟨_, rfl⟩
  rw [← hsid'] at hsid hs
  rw [← hrandom] at hrl hr
  have hoff : Offered env (b1 :: b2 :: b3 :: rest) n ch := ⟨_, _, _, random, sid, hn, hr, hs, hrl, hsid, by omega, hrange.2, hch⟩
  refine ⟨n, scalarBytes n, random, sid, ch, _, _, _, hn, rfl, hr, hs, scalarBytes_length n, hrl, hsid, by rw [← publicShare_eq]; exact hch,
    C76_client_hello_first env _ n ch hoff, ?_⟩
  intro v session messages shRec records tail incoming hsess hmsgs hf hsend hable hp htail hd
  rw [← publicShare_eq] at hsess hmsgs hf hsend hp
  obtain ⟨x, hxs, hl, hml, hconf⟩ := conforming_rfc hoff hsid hrange (by rw [hch]; exact offer_le hrl hsid n hname) hsess hmsgs hf hsend hp.publicValue hp.secret
    hp.dates hp.size hp.records
  -- the answer
  obtain ⟨auth, a1, a2, a3, a4, a5⟩ : ∃ auth, ClientAnswer env x messages v.requests.getLast? auth ∧ ClientProof env session messages v.requests auth ∧
      (∀ m ∈ auth, m.length < 2 ^ 20) ∧ (v.code = 0x1303 → ∀ m ∈ auth, m.length % 64 ≠ 63) ∧ auth.length ≤ 2 := by
    have hreq := hf.requests
    rcases hrq : v.requests with _ | ⟨request, more⟩
    · exact ⟨[], rfl, rfl, by simp, by simp, by simp⟩
    rw [hrq] at hreq
    obtain rfl : more = [] := by
      have := hreq.1
      simp only [List.length_cons] at this
      exact List.length_eq_zero_iff.1 (by omega)
    obtain ⟨cert, hcert⟩ := Option.ne_none_iff_exists'.1 (hp.certificate (by rw [hrq]; simp))
    obtain ⟨hraw, key, k1, k2, k3, k4⟩ := hable cert hcert
    have k4 := k4 request (by rw [hrq]; simp)
    obtain ⟨extensions, c1, c2⟩ := context_of (hreq.2 request (by simp))
    obtain ⟨context, hctx⟩ : ∃ context, context = Tls13.requestContext request := ⟨_, rfl⟩
    rw [← hctx] at c1 c2 k4
    have hcm : Tls13.ownCertificate context (some cert.raw) = Tls13.handshakeMessage 11#8 (Tls13.certificateMessage context [(cert.raw, [])]) := rfl
    obtain ⟨cm, hcm'⟩ : ∃ cm, cm = Tls13.ownCertificate context (some cert.raw) := ⟨_, rfl⟩
    have hcml := own_length context cert.raw
    rw [← hcm'] at k4 hcm hcml
    have hhl : (session.hash.H (messages ++ cm)).length ≤ 64 := by
      have e1 := CertProof.finalize_le (ts x.t (messages ++ cm))
      rw [ts_finalize x.t _ (by rw [List.length_append]; omega)] at e1
      rw [← hxs]
      exact e1
    obtain ⟨r, s, s1, s2, s3, s4, s5⟩ := signed_rfc k2 k3 (by
      simp only [Tls13.verifyContent, List.length_append, List.length_replicate, CertProof.context_length, List.length_singleton]
      omega) k4
    obtain ⟨_, _, _, _, r2, _, t2, _⟩ := id s3
    have hn256 := n_lt
    have hvl := verify_length (r := r) (s := s) (by omega) (by omega) s4 s5
    refine ⟨[cm, Tls13.handshakeMessage 15#8 (Tls13.certificateVerifyMessage 0x0403 (Der.ecdsaSig r s))], ?_, ?_, ?_, ?_, by simp⟩
    · refine ⟨context, extensions, [], c1, by rw [List.append_nil]; exact c2, ?_⟩
      rw [hcert]
      exact ⟨key, _, cm, _, k1, hcm, by rw [hxs]; exact s1, s2, rfl⟩
    · refine ⟨cm, by rw [hcert, hcm', hctx]; rfl, ?_⟩
      rw [if_neg (by rw [hcert]; simp)]
      exact ⟨key, r, s, k1, s3, rfl⟩
    · intro m hm
      simp only [List.mem_cons, List.not_mem_nil, or_false] at hm
      rcases hm with rfl | rfl
      · omega
      · omega
    · intro hcc m hm
      simp only [List.mem_cons, List.not_mem_nil, or_false] at hm
      rcases hm with rfl | rfl
      · rw [hcm', hctx]
        exact hp.own hcc request (by rw [hrq]; simp) cert hcert
      · omega
  have hal : (messages ++ auth.flatten).length < 2 ^ 53 := by
    have := flatten_le a3
    rw [List.length_append]
    omega
  obtain ⟨s, h, cwire, p, g1, g2, g3, g4, g5, g6, g7, g8⟩ := C76_client_completes env _ n x ch (v.hello sid) shRec messages auth records tail incoming
    (fun c hc => by have := (hable c hc).1; omega) (hconf auth a1) htail hd
  refine ⟨s, h, auth, cwire, g1, a2, ?_, g3, ?_⟩
  · rw [← hxs]
    refine sent_rfc (k := x.hsKey .client 0) hl (hsKey_sizes x .client 0) g2 ?_ ?_
    · intro m hm
      rcases List.mem_append.1 hm with hm | hm
      · exact a3 m hm
      · rw [List.mem_singleton.1 hm]
        have := finished_le x .client (messages ++ auth.flatten) hal
        omega
    · intro hc m hm
      rcases List.mem_append.1 hm with hm | hm
      · exact a4 hc m hm
      · rw [List.mem_singleton.1 hm]
        have := finished_le x .client (messages ++ auth.flatten) hal
        omega
  · rw [← hxs]
    exact ChannelProof.lib_transport hl hf.suite g4 g5 g7 g8

end ATLS
