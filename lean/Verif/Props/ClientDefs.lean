import Verif.Model.Client
import Verif.Proof.Flow
import Verif.Props.Certificate
import Verif.Props.Hello
import Verif.Props.X25519
/-
The vocabulary of the theorems about the client's handshake: what the client offers, what the answer of the server determines, what a server must
have shown, and what the client's flight is. The messages themselves are those of `Spec.Tls13`.
-/
namespace ATLS
open ATLS.Model ATLS.Spec FlowProof

/-- The ClientHello `ch` of a client that draws from the reads `reads` of `/dev/urandom`: the private key `n` of its X25519 share, its random value
and its session id, 32 bytes each, drawn in this order. -/
def Offered (env : ClientEnv) (reads : List Bytes) (n : Int) (ch : Bytes) : Prop :=
  ∃ (rng1 rng2 rng3 : Rng) (random sid : Bytes), ((Rng.urandom reads).between 1 32 : Res TlsError (Int × Rng)) = .ok (n, rng1) ∧
    (rng1.bytes 32 : Res TlsError (Bytes × Rng)) = .ok (random, rng2) ∧ (rng2.bytes 32 : Res TlsError (Bytes × Rng)) = .ok (sid, rng3) ∧
    random.length = 32 ∧ sid.length = 32 ∧ 0 ≤ n ∧ n < 2 ^ 256 ∧
    ch = Tls13.handshakeMessage 1#8 (Tls13.clientOffer random sid (publicShare n) env.config.serverName).bytes

/-- What the client's offer `ch` with the private key `n` and the answer `sh` (a handshake message, with any bytes following it in its record)
determine: the suite the server names and the shared secret from the client's private key and the server's share. -/
def ServerAnswered (x : Params) (n : Int) (ch sh : Bytes) : Prop :=
  ∃ (hs : Handshake) (hello : ServerHello) (share : KeyShareEntry),
    Handshake.fromRaw sh = .ok hs ∧ hs.handshakeType = .serverHello ∧ ServerHello.fromRaw hs.fraqment = .ok hello ∧
    hello.getPublicKeyShare = some share ∧ share.group = .x25519 ∧ sharedSecret ⟨.curve25519, n⟩ share.opaq = .ok x.ecdhe ∧
    x.cs = hello.cipherSuite ∧ x.cs.getTshash = .ok x.t ∧ x.cs.getCipher = .ok x.c ∧ x.hellos = ch ++ sh

/-- The messages of the server between its hello and its certificate: EncryptedExtensions and certificate requests (the bodies `requests`). -/
def opening (ee : Bytes) (requests : List Bytes) : Bytes :=
  Tls13.handshakeMessage 8#8 ee ++ (requests.map (Tls13.handshakeMessage 13#8)).flatten

/-- The Certificate message `cm` presents `cert`, in its validity period. -/
def ServerPresented (env : ClientEnv) (cm : Bytes) (cert : Certificate) : Prop :=
  ∃ body, cm = Tls13.handshakeMessage 11#8 body ∧ Certificate.fromHello env.now body = .ok [cert]

/-- The CertificateVerify message `cv` is by the key of `cert` over the transcript `messages`. -/
def ServerPossessed (x : Params) (messages cv : Bytes) (cert : Certificate) : Prop :=
  ∃ body, cv = Tls13.handshakeMessage 15#8 body ∧ Verified cert .server (ts x.t messages) body

/-- The messages of the server after its hello through CertificateVerify, in this order and nothing else. -/
def ServerShown (env : ClientEnv) (x : Params) (requests : List Bytes) (cert : Certificate) (shown : Bytes) : Prop :=
  ∃ ee cm cv, shown = opening ee requests ++ cm ++ cv ∧ ServerPresented env cm cert ∧
    ServerPossessed x (x.hellos ++ opening ee requests ++ cm) cv cert

/-- The messages of the client's flight before its Finished; `request`: the body of the server's (last) certificate request, `messages`: the
transcript through the server's Finished. Without a request there are none. With a request and a configured certificate they are RFC 8446's
Certificate message, with the context of the request, and the CertificateVerify message by the configured key. With a request and without a
certificate a message is sent that ends in `00 00 00 02 00 00`. -/
def ClientAnswer (env : ClientEnv) (x : Params) (messages : Bytes) (request : Option Bytes) (auth : List Bytes) : Prop :=
  match request with
  | none => auth = []
  | some body => ∃ context extensions rest : Bytes, context.length < 256 ∧ body = beBytes 1 context.length ++ context ++ beBytes 2 extensions.length ++ extensions ++ rest ∧
    match env.config.clientCert with
    | some cert => ∃ (key : PrivateKey) (sig : Signature) (cm der : Bytes), env.config.clientKey = some key ∧
        cm = Tls13.handshakeMessage 11#8 (Tls13.certificateMessage context [(cert.raw, [])]) ∧
        Ecdsa.sign env.nonces key (Sha2.sha256 (Tls13.verifyContent .client (x.sess.hash.H (messages ++ cm)))) = .ok (some sig) ∧
        sig.toDer = .ok der ∧ auth = [cm, Tls13.handshakeMessage 15#8 (Tls13.certificateVerifyMessage 0x0403 der)]
    | none => auth = [Tls13.handshakeMessage 11#8 (beBytes 1 context.length ++ context ++ [0#8, 0#8, 0#8, 2#8, 0#8, 0#8])]

/-- A certificate request the client can read: a context and an extension list on which the extension parser does not fail hard. -/
def ReadableRequest (request : Bytes) : Prop :=
  ∃ context extensions rest : Bytes, context.length < 256 ∧ extensions.length < 2 ^ 16 ∧
    request = beBytes 1 context.length ++ context ++ beBytes 2 extensions.length ++ extensions ++ rest ∧
    CertificateRequestExtensions.fromRequest extensions ≠ .panic

/-- `recv` is a sequence of whole records each of which is a piece of `incoming`. -/
inductive TakenFrom (incoming : Bytes) : Bytes → Prop
  | nil : TakenFrom incoming []
  | snoc (type : Byte) (content wire recv : Bytes) : TakenFrom incoming recv → Tls13.IsRecord type content wire → wire <:+: incoming →
      TakenFrom incoming (recv ++ wire)

end ATLS
