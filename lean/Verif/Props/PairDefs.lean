import Verif.Props.ClientComplete
/-
The vocabulary of C60: a client and a server of the library with matching configuration, and the random values they draw.
-/
namespace ATLS
open ATLS.Model ATLS.Spec FlowProof

/-- The random values of a connection: the client's X25519 private key, random value and session id, the server's random value, private key and
context of the certificate request; and the secret of the key exchange. -/
structure Draws where
  clientKey : Int
  clientRandom : Bytes
  sessionId : Bytes
  serverRandom : Bytes
  serverKey : Int
  context : Bytes
  secret : Bytes

/-- The two hellos: the client's offer, and the answer with the suite TLS_CHACHA20_POLY1305_SHA256, the session id of the client and the server's
X25519 (29) share. -/
def Draws.clientHello (q : Draws) (ce : ClientEnv) : Bytes :=
  Tls13.handshakeMessage 1#8 (Tls13.clientOffer q.clientRandom q.sessionId (publicShare q.clientKey) ce.config.serverName).bytes
def Draws.serverHello (q : Draws) : Bytes :=
  Tls13.handshakeMessage 2#8 (Tls13.ServerHelloMsg.mk q.serverRandom q.sessionId 0x1303
    [.keyShare (29, publicShare q.serverKey), .supportedVersions 0x0304]).bytes

/-- What the hellos determine. -/
def Draws.params (q : Draws) (ce : ClientEnv) : Params :=
  ⟨.sha256, .chacha20Poly1305Sha256, .poly1305, q.secret, q.clientHello ce ++ q.serverHello⟩

/-- The bodies of the server's certificate requests: none without a client CA. -/
def Draws.requests (q : Draws) (se : ServerEnv) : List Bytes :=
  match se.config.clientCertCa with
  | none => []
  | some _ => [Tls13.certificateRequest q.context [0x0403]]

/-- The values are those drawn from the reads of `/dev/urandom` of the two ends, and the secret is what the client computes. -/
structure Draws.From (q : Draws) (se : ServerEnv) (crng srng : List Bytes) : Prop where
  client : ∃ rng1 rng2 rng3 : Rng, ((Rng.urandom crng).between 1 32 : Res TlsError (Int × Rng)) = .ok (q.clientKey, rng1) ∧
    (rng1.bytes 32 : Res TlsError (Bytes × Rng)) = .ok (q.clientRandom, rng2) ∧ (rng2.bytes 32 : Res TlsError (Bytes × Rng)) = .ok (q.sessionId, rng3)
  server : ∃ rng1 rng2 rng3 : Rng, ((Rng.urandom srng).bytes 32 : Res TlsError (Bytes × Rng)) = .ok (q.serverRandom, rng1) ∧
    (rng1.between 1 32 : Res TlsError (Int × Rng)) = .ok (q.serverKey, rng2) ∧
    (se.config.clientCertCa.isSome → (rng2.bytes 32 : Res TlsError (Bytes × Rng)) = .ok (q.context, rng3))
  secret : sharedSecret ⟨.curve25519, q.clientKey⟩ (publicShare q.serverKey) = .ok q.secret

/-- `raw` is a certificate that is valid at `now` and certifies the P-256 key `key`. -/
structure Identity (raw : Bytes) (key : PrivateKey) (now : Nat) (x : X509) : Prop where
  curve : key.curve = .secp256r1
  scalar : ¬ (P256.n : Int) ∣ key.secret
  parsed : X509.fromRaw raw = .ok x
  public_ : ∃ pk, key.getPublicKey = .ok pk ∧ x.getPublicKey = .ok pk
  valid : x.validity.isValid now = .ok true (ε := TlsError)

/-- Two configurations that fit: the server draws from `/dev/urandom`, the names agree if both ends have one, the server's certificate is one the client
accepts, and if the server has a client CA then the client has a certificate of that CA which the server accepts. The sizes are such that every
message fits a record and every record of the client the server's read buffer (4096 bytes). -/
structure Matching (ce : ClientEnv) (se : ServerEnv) : Prop where
  prng : se.config.prngType = .urandom
  name : ∀ a b, ce.config.serverName = some a → se.config.serverName = some b → a = b
  utf8 : ∀ a, ce.config.serverName = some a → utf8Valid a = true ∧ a.length ≤ 3800
  size : se.config.cert.raw.length ≤ 16000
  server : ∃ x, Identity se.config.cert.raw se.config.privkey ce.now x
  auth : ∀ ca, se.config.clientCertCa = some ca → ∃ (cert : Certificate) (key : PrivateKey) (x : X509),
    ce.config.clientCert = some cert ∧ ce.config.clientKey = some key ∧ Identity cert.raw key se.now x ∧ cert.raw.length ≤ 3900 ∧
    ca.hasSigned ⟨cert.raw, some x⟩ = .ok () ∧ ∀ f, se.config.clientCertCustomVerifyFn = some f → f x = true
  other : ∀ c, ce.config.clientCert = some c → c.raw.length + 400 ≤ 2 ^ 24

/-- The key signs `content` with the given nonces, and the two numbers of the signature satisfy `P`. -/
def Signs (P : Int → Prop) (nonces : List Int) (key : PrivateKey) (content : Bytes) : Prop :=
  (∀ k ∈ nonces, 0 ≤ k) ∧ ∃ sig, Ecdsa.sign nonces key (Sha2.sha256 content) = .ok (some sig) ∧ P sig.r ∧ P sig.s

/-- The transcript up to the server's Certificate message. -/
def Draws.presented (q : Draws) (ce : ClientEnv) (se : ServerEnv) : Bytes :=
  q.clientHello ce ++ q.serverHello ++ encryptedExtensions ++ ((q.requests se).map (Tls13.handshakeMessage 13#8)).flatten ++ certificateMsg se.config.cert

/-- The context of the server's certificate request. -/
def Draws.contextOf (q : Draws) (se : ServerEnv) : Option Bytes := se.config.clientCertCa.map fun _ => q.context

/-- The two signatures of the handshake can be made and their numbers satisfy `P`: the server's, and the client's if the server requests it, each
over RFC 8446's content for the transcript so far. -/
structure Signed (P : Int → Prop) (q : Draws) (ce : ClientEnv) (se : ServerEnv) : Prop where
  server : Signs P se.nonces se.config.privkey (Tls13.verifyContent .server ((q.params ce).sess.hash.H (q.presented ce se)))
  client : ∀ flight ca cert key, se.config.clientCertCa = some ca → ce.config.clientCert = some cert → ce.config.clientKey = some key →
    ServerFlight se (q.params ce) (q.contextOf se) flight →
    Signs P ce.nonces key (Tls13.verifyContent .client ((q.params ce).sess.hash.H ((q.params ce).hellos ++ flight.flatten ++
      Tls13.handshakeMessage 11#8 (Tls13.certificateMessage q.context [(cert.raw, [])]))))

/-- The handshake of the two ends completes. The client, before it reads anything, sends the record `hello`; the server, having read only that, sends
the records `fromServer`; a client that reads these, grouped into reads in any way, finishes and has sent `fromClient` besides `hello`; a server that
reads `hello` and `fromClient`, grouped into reads in any way, finishes. Both have the same cipher, and each end's reading key is the other's writing
key. -/
def Completes (ce : ClientEnv) (se : ServerEnv) (crng srng : List Bytes) : Prop :=
  ∃ (hello : Bytes) (fromServer fromClient : List Bytes) (c : Cipher) (kc ks : Key),
    (∃ incoming, Tls13.Pieces 2048 [] fromServer incoming) ∧ (∀ w ∈ hello :: fromClient, w.length ≤ 4096) ∧
    (∃ h, ClientConnection.connect ce crng ⟨[], [], []⟩ = (.err .brokenPipe, some h) ∧ h.stream.stream.written = hello) ∧
    (∃ h, ServerConnection.accept se srng ⟨[hello], [], []⟩ = (.err .brokenPipe, h) ∧ h.stream.stream.written = fromServer.flatten) ∧
    (∀ incoming, Tls13.Pieces 2048 [] fromServer incoming → ∃ s h p, ClientConnection.connect ce crng ⟨incoming, [], []⟩ = (.ok s, h) ∧
      s.stream.written = hello ++ fromClient.flatten ∧ s.protection = some p ∧ p.cipher = c ∧ p.isClient = true ∧
      RecProof.wKey p = kc ∧ RecProof.rKey p = ks) ∧
    (∀ incoming, Tls13.Delivers 4096 (hello :: fromClient) incoming → ∃ s h p, ServerConnection.accept se srng ⟨incoming, [], []⟩ = (.ok s, h) ∧
      s.stream.written = fromServer.flatten ∧ s.protection = some p ∧ p.cipher = c ∧ p.isClient = false ∧
      RecProof.wKey p = ks ∧ RecProof.rKey p = kc)

end ATLS
