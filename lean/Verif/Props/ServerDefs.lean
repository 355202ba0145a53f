import Verif.Model.Server
import Verif.Proof.Flow
import Verif.Props.Certificate
/-
The vocabulary of the theorems about the server's handshake: what the first exchange determines, what the server's flight must be, and what a
client must have shown. The messages themselves are those of `Spec.Tls13`.
-/
namespace ATLS
open ATLS.Model ATLS.Spec FlowProof

/-- What the ClientHello `ch` (a handshake message, with any bytes following it in its record) and the server's answer `sh` determine: the library
parses the message, chooses the suite, and computes the shared secret from its new private key and the client's X25519 share. `ccs`: the
change_cipher_spec record sent if the ClientHello has a session id; `rng`: the generator after the random value and the private key. -/
def HelloAnsweredBy (env : ServerEnv) (reads : List Bytes) (x : Params) (ch sh ccs : Bytes) (rng : Rng) : Prop :=
  ∃ (hs : Handshake) (hello : ClientHello) (answer : ServerHello) (pk : PrivateKey) (share : KeyShareEntry) (body : Bytes),
    Handshake.fromRaw ch = .ok hs ∧ hs.handshakeType = .clientHello ∧ ClientHello.fromRaw hs.fraqment = .ok hello ∧
    ServerHello.fromClientHello hello (.urandom reads) env.config.serverName = .ok (answer, pk, rng) ∧
    answer.asBytes = .ok body ∧ sh = Tls13.handshakeMessage 2#8 body ∧
    hello.getPublicKeyShare = some share ∧ share.group = .x25519 ∧ sharedSecret pk share.opaq = .ok x.ecdhe ∧
    ccs = (if hello.legacySessionIdEcho.isSome then Tls13.plainRecord 20#8 [1#8] else []) ∧
    x.cs = answer.cipherSuite ∧ x.cs.getTshash = .ok x.t ∧ x.cs.getCipher = .ok x.c ∧ x.hellos = ch ++ sh

/-- The same without the generator. -/
def HelloAnswered (env : ServerEnv) (reads : List Bytes) (x : Params) (ch sh ccs : Bytes) : Prop := ∃ rng, HelloAnsweredBy env reads x ch sh ccs rng

/-- The context of the certificate request is drawn from the generator `rng`; without a client CA there is none. -/
def Drawn (env : ServerEnv) (rng : Rng) (context : Option Bytes) : Prop :=
  match env.config.clientCertCa with
  | none => context = none
  | some _ => ∃ c rng', (rng.bytes 32 : Res TlsError (Bytes × Rng)) = .ok (c, rng') ∧ context = some c

/-- The messages of the server's flight after ServerHello that depend only on the configuration. -/
def encryptedExtensions : Bytes := Tls13.handshakeMessage 8#8 [0#8, 0#8]
def certificateMsg (c : Certificate) : Bytes := Tls13.handshakeMessage 11#8 (Tls13.certificateMessage [] [(c.raw, [])])

/-- The certificate request: none without a client CA, else RFC 8446's with 32 bytes of context. -/
def Requested (env : ServerEnv) (context : Option Bytes) (request : List Bytes) : Prop :=
  match env.config.clientCertCa with
  | none => context = none ∧ request = []
  | some _ => ∃ c : Bytes, c.length = 32 ∧ context = some c ∧ request = [Tls13.handshakeMessage 13#8 (Tls13.certificateRequest c [0x0403])]

/-- The CertificateVerify message: the signature of the configured key over RFC 8446's content for the transcript `messages`. -/
def ServerSigned (env : ServerEnv) (x : Params) (messages cv : Bytes) : Prop :=
  ∃ sig der, Ecdsa.sign env.nonces env.config.privkey (Sha2.sha256 (Tls13.verifyContent .server (x.sess.hash.H messages))) = .ok (some sig) ∧
    sig.toDer = .ok der ∧ cv = Tls13.handshakeMessage 15#8 (Tls13.certificateVerifyMessage 0x0403 der)

/-- The protected messages of the server's flight, RFC 8446 sections 4.3.1 to 4.4.4. -/
def ServerFlight (env : ServerEnv) (x : Params) (context : Option Bytes) (flight : List Bytes) : Prop :=
  ∃ (request : List Bytes) (cv : Bytes), Requested env context request ∧
    ServerSigned env x (x.hellos ++ ([encryptedExtensions] ++ request ++ [certificateMsg env.config.cert]).flatten) cv ∧
    flight = [encryptedExtensions] ++ request ++ [certificateMsg env.config.cert, cv,
      x.sess.finished .server (x.hellos ++ ([encryptedExtensions] ++ request ++ [certificateMsg env.config.cert, cv]).flatten)]

/-- A client certificate the server takes from the content `m` of a record: it is the (only) one of a Certificate message with the request's
context, in its validity period, signed by the client CA and allowed by the custom function. -/
def Presented (env : ServerEnv) (context : Option Bytes) (m : Bytes) (cert : Certificate) : Prop :=
  ∃ (ca : Certificate) (hs : Handshake) (c rest : Bytes) (x : X509), env.config.clientCertCa = some ca ∧ Handshake.fromRaw m = .ok hs ∧ hs.handshakeType = .certificate ∧
    context = some c ∧ hs.fraqment = beBytes 1 c.length ++ c ++ rest ∧ Certificate.fromHello env.now hs.fraqment = .ok [cert] ∧
    ca.hasSigned cert = .ok () ∧ cert.x509 = some x ∧ ∀ f, env.config.clientCertCustomVerifyFn = some f → f x = true

/-- The content `m` of a record is a CertificateVerify message by the key of `cert` over the transcript `messages`. -/
def Possessed (x : Params) (messages m : Bytes) (cert : Certificate) : Prop :=
  ∃ hs : Handshake, Handshake.fromRaw m = .ok hs ∧ hs.handshakeType = .certificateVerify ∧ Verified cert .client (ts x.t messages) hs.fraqment

/-- The contents of the client's records between its hello and its Finished: none without a client CA, else Certificate and CertificateVerify.
`messages`: the transcript up to the server's Finished. -/
def ClientAuth (env : ServerEnv) (x : Params) (context : Option Bytes) (messages : Bytes) (auth : List Bytes) : Prop :=
  match env.config.clientCertCa with
  | none => auth = []
  | some _ => ∃ (m1 m2 : Bytes) (cert : Certificate), auth = [m1, m2] ∧ Presented env context m1 cert ∧ Possessed x (messages ++ m1) m2 cert

/-- The first exchange: the client's record with its hello, the server's hello, the change_cipher_spec record and the protected flight. -/
structure Exchange where
  x : Params
  chRec : Bytes
  ch : Bytes
  sh : Bytes
  ccs : Bytes
  swire : Bytes
  flight : List Bytes

/-- The transcript through the server's Finished. -/
def Exchange.transcript (r : Exchange) : Bytes := r.x.hellos ++ r.flight.flatten

/-- The records of the client after its hello carry these contents. -/
def Exchange.Received (r : Exchange) (contents : List Bytes) (recv : Bytes) : Prop :=
  ∃ wire, recv = r.chRec ++ wire ∧ Tls13.Carried (aead r.x.c) (r.x.sess.key .client) (r.x.sess.iv .client) 0 contents wire

end ATLS
