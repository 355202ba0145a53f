import Verif.Model.Hello
import Verif.Model.KeyExchange
import Verif.Model.Rand
/-
Model of `ServerHello::from_client_hello`, `anothertls/src/net/server/server_hello.rs:81-202`.
-/
namespace ATLS.Model
open ATLS

namespace ServerHello

/-- The variables of net/server/server_hello.rs:86-88 and the generator. -/
structure Negotiation where
  extensions : List ServerExtension
  privateKey : Option PrivateKey
  namedGroup : Option NamedGroup
  rng : Rng
  deriving DecidableEq

/-- net/server/server_hello.rs:108-132: the loop over the entries of a key share; it stops at the first X25519 entry. -/
def keyShareLoop : List KeyShareEntry → Negotiation → Res TlsError Negotiation
  | [], s => .ok s
  | key :: rest, s =>
    match key.group with
    | .x25519 => do
      let (secret, rng) ← s.rng.between 1 32
      let pk : PrivateKey := ⟨.curve25519, secret⟩
      let kse ← match keyShareOf pk with
        | .ok kse => .ok kse
        | .err _ => .panic
        | .panic => .panic
      .ok { extensions := s.extensions ++ [.keyShare ⟨[kse]⟩], privateKey := some pk, namedGroup := some .x25519, rng := rng }
    | .secp256r1 => .panic
    | _ => keyShareLoop rest s

/-- net/server/server_hello.rs:100-155: one client extension. -/
def onExtension (serverName : Option Bytes) (s : Negotiation) : ClientExtension → Res TlsError Negotiation
  | .supportedVersion tls13 => if tls13 then .ok s else .err .insufficientSecurity
  | .keyShare k => keyShareLoop k.entries s
  | .serverName n =>
    match serverName with
    | some expected => if expected ≠ n then .err .unrecognizedName else .ok s
    | none => .ok s
  | .signatureAlgorithms schemes => if schemes.contains .ecdsaSecp256r1Sha256 then .ok s else .err .insufficientSecurity
  | .supportedGroups _ => .ok s

/-- net/server/server_hello.rs:166-180: the loop over the offered suites. -/
def selectSuite : List CipherSuite → Option CipherSuite → Option CipherSuite
  | [], acc => acc
  | .emptyRenegotiationInfoScsv :: rest, acc => selectSuite rest acc
  | .chacha20Poly1305Sha256 :: _, _ => some .chacha20Poly1305Sha256
  | cs :: rest, _ => selectSuite rest (some cs)

/-- net/server/server_hello.rs:81-202 `from_client_hello`; of the configuration only the server name is used. The generator is returned too.
`try_into().unwrap()` panics unless 32 bytes come back. -/
def fromClientHello (ch : ClientHello) (rng : Rng) (serverName : Option Bytes) : Res TlsError (ServerHello × PrivateKey × Rng) := do
  let (random, rng) ← rng.bytes 32
  if random.length ≠ 32 then .panic
  else do
    let s ← ch.extensions.foldlM (onExtension serverName) ⟨[], none, none, rng⟩
    if s.namedGroup.isNone then .err .insufficientSecurity
    else do
      let extensions := s.extensions ++ [.supportedVersions true]
      let cipherSuite ← Res.okOr .handshakeFailure (selectSuite ch.cipherSuites none)
      let privateKey ← Res.okOr .handshakeFailure s.privateKey
      .ok (⟨random, ch.legacySessionIdEcho, cipherSuite, extensions⟩, privateKey, s.rng)

end ServerHello
end ATLS.Model
