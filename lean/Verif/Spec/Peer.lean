import Verif.Spec.Delivery
import Verif.Spec.Hello
import Verif.Spec.X509
import Verif.Spec.Ecdsa
import Verif.Spec.X25519
/-
RFC 8446: a client and a server (no PSK, X25519, ECDSA with P-256 and SHA-256) as parties of a handshake: the choices they make and the messages that
follow from them. Nothing here refers to the library.
-/
namespace ATLS.Spec.Tls13
open ATLS ATLS.Spec

/-- Appendix B.4: the hash, the key length and the AEAD of a cipher suite. -/
structure Suite where
  hash : Hash
  keyLength : Nat
  aead : Aead

/-- TLS_AES_128_GCM_SHA256, TLS_AES_256_GCM_SHA384, TLS_CHACHA20_POLY1305_SHA256 -/
def suites : List (Nat × Suite) :=
  [(0x1301, ⟨hashSha256, 16, .aesGcm⟩), (0x1302, ⟨hashSha384, 32, .aesGcm⟩), (0x1303, ⟨hashSha256, 32, .chacha20Poly1305⟩)]

/-- The AEAD of a suite, as a function that never fails. -/
def Suite.protect (u : Suite) : Seal := fun key nonce plaintext aad => some (u.aead.encrypt key nonce plaintext aad)

/-- RFC 7748: the public value of an X25519 private key. -/
def x25519Public (k : Bytes) : Bytes := X25519.x25519 k (9#8 :: zeros 31)

/-- A certificate: the part that is signed and the two numbers of its issuer's signature. -/
structure Cert where
  tbs : X509.Tbs
  r : Nat
  s : Nat

/-- Its DER encoding. -/
def Cert.der (c : Cert) : Bytes := X509.certificate c.tbs c.r c.s

/-- Its validity period contains the Unix time `now`. -/
def Cert.InPeriod (c : Cert) (now : Nat) : Prop :=
  Time.unix c.tbs.notBefore.year c.tbs.notBefore.month c.tbs.notBefore.day c.tbs.notBefore.hour c.tbs.notBefore.minute c.tbs.notBefore.second ≤ now ∧
  now ≤ Time.unix c.tbs.notAfter.year c.tbs.notAfter.month c.tbs.notAfter.day c.tbs.notAfter.hour c.tbs.notAfter.minute c.tbs.notAfter.second

/-- It certifies the P-256 key with these coordinates. -/
def Cert.Certifies (c : Cert) (Q : Nat × Nat) : Prop := Q.1 < 2 ^ 256 ∧ Q.2 < 2 ^ 256 ∧ c.tbs.key = X509.point Q.1 Q.2

/-- It is signed with the P-256 key with these coordinates, with SHA-256. -/
def Cert.SignedBy (c : Cert) (Q : Nat × Nat) : Prop :=
  Ecdsa.Accepts ((Q.1 : Int), (Q.2 : Int)) c.r c.s (Ecdsa.hashInt (Sha2.sha256 c.tbs.encode))

/-- Section 4.4.2 and 4.4.3: how an end proves its identity: a certificate, with its extensions and the rest of its chain, and the numbers of the
signature in its CertificateVerify message. -/
structure Proof where
  leaf : Cert
  extensions : Bytes
  chain : List (Bytes × Bytes)
  r : Nat
  s : Nat

/-- The two messages. -/
def Proof.certificate (p : Proof) (context : Bytes) : Bytes :=
  handshakeMessage 11#8 (certificateMessage context ((p.leaf.der, p.extensions) :: p.chain))
def Proof.verify (p : Proof) : Bytes := handshakeMessage 15#8 (certificateVerifyMessage 0x0403 (Der.ecdsaSig p.r p.s))

/-- The proof is a valid one of the end `role` at the time `now`: the certificate is well-formed and in its validity period, and the signature is one of
the certified key over the hash of `messages`, the transcript including the Certificate message. -/
structure Proof.Valid (p : Proof) (role : Role) (h : Hash) (messages : Bytes) (now : Nat) : Prop where
  leaf : p.leaf.tbs.WellFormed
  period : p.leaf.InPeriod now
  size : (((p.leaf.der, p.extensions) :: p.chain).map certificateEntry).flatten.length < 2 ^ 24
  signature : ∃ Q : Nat × Nat, p.leaf.Certifies Q ∧
    Ecdsa.Accepts ((Q.1 : Int), (Q.2 : Int)) p.r p.s (Ecdsa.hashInt (Sha2.sha256 (verifyContent role (h.H messages))))

/-! ### The server -/

/-- The choices of a server: its X25519 private key, random value, cipher suite, the extensions of its ServerHello, the contents of its
EncryptedExtensions, its certificate requests and its proof of identity. -/
structure Server where
  key : Bytes
  random : Bytes
  code : Nat
  suite : Suite
  helloExtensions : List ServerExt
  extensions : Bytes
  requests : List Bytes
  proof : Proof

/-- Its ServerHello, in answer to a ClientHello with the session id `sid`. -/
def Server.helloMsg (v : Server) (sid : Bytes) : ServerHelloMsg := ⟨v.random, sid, v.code, v.helloExtensions⟩
def Server.hello (v : Server) (sid : Bytes) : Bytes := handshakeMessage 2#8 (v.helloMsg sid).bytes

/-- The session with a client that sent the ClientHello message `ch` with the session id `sid` and the X25519 share `share`. -/
def Server.session (v : Server) (ch sid share : Bytes) : Session :=
  ⟨v.suite.hash, v.suite.keyLength, X25519.x25519 v.key share, ch ++ v.hello sid⟩

/-- The messages after ServerHello up to CertificateVerify. -/
def Server.opening (v : Server) : List Bytes :=
  [handshakeMessage 8#8 v.extensions] ++ v.requests.map (handshakeMessage 13#8) ++ [v.proof.certificate []]

/-- All messages after ServerHello. -/
def Server.flight (v : Server) (session : Session) : List Bytes :=
  v.opening ++ [v.proof.verify, session.finished .server (session.hellos ++ (v.opening ++ [v.proof.verify]).flatten)]

/-- The server follows RFC 8446 with a client that sent the ClientHello message `ch` with the session id `sid` and the X25519 share `share`, at the
time `now`: a key of 32 bytes; a ServerHello with one of the three suites, exactly one key_share extension, which has its public value, and exactly
one supported_versions extension, which selects TLS 1.3; at most one certificate request; and a valid proof of identity. -/
structure Server.Follows (v : Server) (ch sid share : Bytes) (now : Nat) : Prop where
  key : v.key.length = 32
  hello : (v.helloMsg sid).Valid
  suite : (v.code, v.suite) ∈ suites
  keyShare : v.helloExtensions.filter (fun e => e.typ == 51) = [.keyShare (29, x25519Public v.key)]
  versions : v.helloExtensions.filter (fun e => e.typ == 43) = [.supportedVersions 0x0304]
  requests : v.requests.length ≤ 1 ∧ ∀ b ∈ v.requests, IsCertificateRequest b
  proof : v.proof.Valid .server v.suite.hash ((v.session ch sid share).hellos ++ v.opening.flatten) now

/-- The server sends: `shRec` is a record with its ServerHello and `records` are records with its other messages (several in one record, or each in its
own), protected with its handshake traffic key. -/
structure Server.Sends (v : Server) (ch sid share shRec : Bytes) (records : List Bytes) : Prop where
  hello : IsRecord 22#8 (v.hello sid) shRec
  flight : ∃ contents, Coalesced (v.flight (v.session ch sid share)) contents ∧
    ProtectedFlight v.suite.protect ((v.session ch sid share).key .server) ((v.session ch sid share).iv .server) 0 contents records

/-- The transcript up to the server's Finished message. -/
def Server.transcript (v : Server) (ch sid share : Bytes) : Bytes := ch ++ v.hello sid ++ (v.flight (v.session ch sid share)).flatten

/-- The context of a certificate request. -/
def requestContext (request : Bytes) : Bytes := (request.drop 1).take (request.headD 0).toNat

/-- The Certificate message of an end with the single certificate `raw`, or none. -/
def ownCertificate (context : Bytes) (raw : Option Bytes) : Bytes := handshakeMessage 11#8 (certificateMessage context (raw.toList.map fun c => (c, [])))

/-! ### The client -/

/-- The choices of a client: its X25519 private key, its ClientHello and how it proves its identity, if asked. -/
structure Client where
  key : Bytes
  helloMsg : ClientHelloMsg
  proof : Proof

/-- Its ClientHello message. -/
def Client.hello (c : Client) : Bytes := handshakeMessage 1#8 c.helloMsg.bytes

/-- The client follows RFC 8446: a key of 32 bytes; a ClientHello with exactly one key_share extension, whose shares include the public value of the
key for X25519, and exactly one supported_versions extension, which offers TLS 1.3; at least one of the three suites is offered. -/
structure Client.Follows (c : Client) : Prop where
  key : c.key.length = 32
  hello : c.helloMsg.Valid
  suites : ∃ u ∈ suites, u.1 ∈ c.helloMsg.suites
  keyShare : ∃ l, c.helloMsg.exts.filter (fun e => e.typ == 51) = [.keyShare l] ∧ (29, x25519Public c.key) ∈ l
  versions : ∃ l, c.helloMsg.exts.filter (fun e => e.typ == 43) = [.supportedVersions l] ∧ 0x0304 ∈ l
  names : ∀ n, .serverName n ∈ c.helloMsg.exts → Utf8.IsText n

/-- The messages of the client between the server's Finished and its own: none if it was not asked, else its certificate and the proof that it holds the
key. -/
def Client.answer (c : Client) : Option Bytes → List Bytes
  | none => []
  | some context => [c.proof.certificate context, c.proof.verify]

/-- The X25519 share of the client. -/
def Client.share (c : Client) : Bytes := x25519Public c.key

/-- The session of the client with the server `v`, and the transcript up to the server's Finished. -/
def Client.session (c : Client) (v : Server) : Session := v.session c.hello c.helloMsg.sessionId c.share
def Client.transcript (c : Client) (v : Server) : Bytes := v.transcript c.hello c.helloMsg.sessionId c.share

/-- The messages with which the client ends the handshake with the server `v`. -/
def Client.flight (c : Client) (v : Server) : List Bytes :=
  c.answer (v.requests.head?.map requestContext) ++
    [(c.session v).finished .client (c.transcript v ++ (c.answer (v.requests.head?.map requestContext)).flatten)]

/-- The client ends the handshake with the server `v` at the time `now`: if asked, its proof of identity is valid; `records` are records with these
messages (`contents`: several in one record, or each in its own), protected with its handshake traffic key. -/
structure Client.Replies (c : Client) (v : Server) (now : Nat) (contents records : List Bytes) : Prop where
  proof : ∀ request ∈ v.requests, c.proof.Valid .client v.suite.hash (c.transcript v ++ c.proof.certificate (requestContext request)) now
  coalesced : Coalesced (c.flight v) contents
  records : ProtectedFlight v.suite.protect ((c.session v).key .client) ((c.session v).iv .client) 0 contents records

end ATLS.Spec.Tls13
