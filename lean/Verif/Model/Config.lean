import Verif.Model.Certificate
import Verif.Model.Rand
/-
Model of `anothertls/src/net/server/config.rs` and `anothertls/src/net/client/config.rs`.
The builder methods that read files get what the file contains as an argument: `none` when it cannot be read or parsed.
-/
namespace ATLS.Model
open ATLS

/-- net/server/config.rs:12-36 `ServerConfig`. Strings are their UTF-8 bytes; the custom verification function is a total function. -/
structure ServerConfig where
  privkey : PrivateKey
  cert : Certificate
  clientCertCa : Option Certificate
  clientCertCustomVerifyFn : Option (X509 → Bool)
  keylog : Option Bytes
  serverName : Option Bytes
  prngType : Prng

/-- net/server/config.rs:38-46 `ServerConfigBuilder`. -/
structure ServerConfigBuilder where
  cert : Option Certificate
  privkey : Option PrivateKey
  keylog : Option Bytes
  serverName : Option Bytes
  clientCertCa : Option Certificate
  prngType : Prng
  clientCertCustomVerifyFn : Option (X509 → Bool)

namespace ServerConfigBuilder

/-- net/server/config.rs:54-64 `new`. -/
def new : ServerConfigBuilder := ⟨none, none, none, none, none, .urandom, none⟩

/-- net/server/config.rs:65-71 `add_cert_pem` -/
def addCertPem (b : ServerConfigBuilder) (file : Option Certificate) : Res Bytes ServerConfigBuilder :=
  match file with
  | none => .panic
  | some c => .ok { b with cert := some c }

/-- net/server/config.rs:72-78 `add_client_cert_ca` -/
def addClientCertCa (b : ServerConfigBuilder) (file : Option Certificate) : Res Bytes ServerConfigBuilder :=
  match file with
  | none => .panic
  | some c => .ok { b with clientCertCa := some c }

/-- net/server/config.rs:79-86 `add_privkey_pem` -/
def addPrivkeyPem (b : ServerConfigBuilder) (file : Option PrivateKey) : Res Bytes ServerConfigBuilder :=
  match file with
  | none => .panic
  | some k => .ok { b with privkey := some k }

/-- net/server/config.rs:87-90 `set_keylog_path` -/
def setKeylogPath (b : ServerConfigBuilder) (path : Bytes) : ServerConfigBuilder := { b with keylog := some path }

/-- net/server/config.rs:91-94 `enable_keylog` -/
def enableKeylog (b : ServerConfigBuilder) : ServerConfigBuilder := { b with keylog := some (ascii "keylog.txt") }

/-- net/server/config.rs:95-98 `set_client_cert_custom_verify_fn` -/
def setClientCertCustomVerifyFn (b : ServerConfigBuilder) (f : X509 → Bool) : ServerConfigBuilder :=
  { b with clientCertCustomVerifyFn := some f }

/-- net/server/config.rs:99-102 `set_server_name` -/
def setServerName (b : ServerConfigBuilder) (n : Bytes) : ServerConfigBuilder := { b with serverName := some n }

/-- net/server/config.rs:103-106 `set_prng` -/
def setPrng (b : ServerConfigBuilder) (p : Prng) : ServerConfigBuilder := { b with prngType := p }

/-- net/server/config.rs:107-129 `build`; the error is a message. -/
def build (b : ServerConfigBuilder) : Res Bytes ServerConfig :=
  if b.cert.isNone then .err (ascii "No cert provided")
  else if b.privkey.isNone then .err (ascii "No privkey for cert provided")
  else if b.clientCertCustomVerifyFn.isSome ∧ b.clientCertCa.isNone then
    .err (ascii "No client certificate CA found. Custom verify fn useless.")
  else do
    let cert ← Res.unwrap b.cert
    let privkey ← Res.unwrap b.privkey
    .ok ⟨privkey, cert, b.clientCertCa, b.clientCertCustomVerifyFn, b.keylog, b.serverName, b.prngType⟩

end ServerConfigBuilder

/-- net/client/config.rs:13-19 `ClientConfig`. -/
structure ClientConfig where
  serverName : Option Bytes
  clientCert : Option Certificate
  clientKey : Option PrivateKey
  keylog : Option Bytes
  deriving DecidableEq

/-- net/client/config.rs:21-26 `ClientConfigBuilder`. -/
structure ClientConfigBuilder where
  keylog : Option Bytes
  serverName : Option Bytes
  clientCert : Option Certificate
  clientKey : Option PrivateKey
  deriving DecidableEq

namespace ClientConfigBuilder

/-- net/client/config.rs:35-42 `new`. -/
def new : ClientConfigBuilder := ⟨none, none, none, none⟩

/-- net/client/config.rs:43-49 `add_client_cert_pem` -/
def addClientCertPem (b : ClientConfigBuilder) (file : Option Certificate) : Res Bytes ClientConfigBuilder :=
  match file with
  | none => .panic
  | some c => .ok { b with clientCert := some c }

/-- net/client/config.rs:50-57 `add_client_key_pem` -/
def addClientKeyPem (b : ClientConfigBuilder) (file : Option PrivateKey) : Res Bytes ClientConfigBuilder :=
  match file with
  | none => .panic
  | some k => .ok { b with clientKey := some k }

/-- net/client/config.rs:58-61 `set_server_name` -/
def setServerName (b : ClientConfigBuilder) (n : Bytes) : ClientConfigBuilder := { b with serverName := some n }

/-- net/client/config.rs:62-65 `set_keylog_path` -/
def setKeylogPath (b : ClientConfigBuilder) (path : Bytes) : ClientConfigBuilder := { b with keylog := some path }

/-- net/client/config.rs:66-69 `enable_keylog` -/
def enableKeylog (b : ClientConfigBuilder) : ClientConfigBuilder := { b with keylog := some (ascii "keylog.txt") }

/-- net/client/config.rs:70-80 `build`. -/
def build (b : ClientConfigBuilder) : Res Bytes ClientConfig :=
  if b.clientCert.isSome ∧ b.clientKey.isNone then .panic
  else .ok ⟨b.serverName, b.clientCert, b.clientKey, b.keylog⟩

end ClientConfigBuilder

/-- crypto/ellipticcurve/privatekey.rs:19-28 `PrivateKey::from_pem` on the decoded body of the "EC PRIVATE KEY" block (`none`: not readable or
no such block); `secret[7..39]` panics when shorter. -/
def PrivateKey.fromPemBody {ε : Type} (body : Option Bytes) : Res ε (Option PrivateKey) :=
  match body with
  | none => .ok none
  | some b => do
    let s ← slice b 7 39
    .ok (some ⟨.secp256r1, toIbigBe s⟩)

end ATLS.Model
