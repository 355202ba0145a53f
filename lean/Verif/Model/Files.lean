import Verif.Model.Base64
import Verif.Model.Config
/-
Model of the functions of `anothertls/src/net/handshake/certificate.rs`, `anothertls/src/crypto/ellipticcurve/privatekey.rs` and of the builders in
`anothertls/src/net/server/config.rs`, `anothertls/src/net/client/config.rs` that read a file. A file is its text; `none` stands for a file that
cannot be read or is not UTF-8.
-/
namespace ATLS.Model
open ATLS

/-- utils/pem.rs:17-21 `fs::read_to_string(filepath)`, then the rest of the function; `err ()` is `None`. -/
def pemFile (file : Option (List Char)) : Res Unit (List (List Char × Bytes)) :=
  match file with
  | none => .err ()
  | some text => pemContent text

/-- `get_pem_content_from_file(filepath)?.get(title)?` in crypto/ellipticcurve/privatekey.rs:20-21 and net/handshake/certificate.rs:35-38, 44-47. -/
def pemBlock {ε : Type} (file : Option (List Char)) (title : String) : Res ε (Option Bytes) :=
  match pemFile file with
  | .ok content => .ok (content.lookup title.toList)
  | .err _ => .ok none
  | .panic => .panic

namespace Certificate

/-- net/handshake/certificate.rs:43-50 `from_pem`. -/
def fromPem {ε : Type} (file : Option (List Char)) : Res ε (Option Certificate) := do
  let raw ← pemBlock file "CERTIFICATE"
  .ok (raw.map fun raw => ⟨raw, none⟩)

/-- net/handshake/certificate.rs:34-41 `from_pem_x509`; `expect` panics when the certificate does not parse. -/
def fromPemX509 {ε : Type} (file : Option (List Char)) : Res ε (Option Certificate) := do
  let raw ← pemBlock file "CERTIFICATE"
  match raw with
  | none => .ok none
  | some raw =>
    match fromRawX509 raw with
    | .ok c => .ok (some c)
    | _ => .panic

end Certificate

/-- crypto/ellipticcurve/privatekey.rs:19-28 `from_pem`. -/
def PrivateKey.fromPem {ε : Type} (file : Option (List Char)) : Res ε (Option PrivateKey) := do
  let body ← pemBlock file "EC PRIVATE KEY"
  PrivateKey.fromPemBody body

namespace ServerConfigBuilder

/-- net/server/config.rs:65-71 `add_cert_pem`. -/
def addCertPemFile (b : ServerConfigBuilder) (file : Option (List Char)) : Res Bytes ServerConfigBuilder := do
  let c ← Certificate.fromPem file
  b.addCertPem c

/-- net/server/config.rs:72-78 `add_client_cert_ca`. -/
def addClientCertCaFile (b : ServerConfigBuilder) (file : Option (List Char)) : Res Bytes ServerConfigBuilder := do
  let c ← Certificate.fromPemX509 file
  b.addClientCertCa c

/-- net/server/config.rs:79-86 `add_privkey_pem`. -/
def addPrivkeyPemFile (b : ServerConfigBuilder) (file : Option (List Char)) : Res Bytes ServerConfigBuilder := do
  let k ← PrivateKey.fromPem file
  b.addPrivkeyPem k

end ServerConfigBuilder

namespace ClientConfigBuilder

/-- net/client/config.rs:43-49 `add_client_cert_pem`. -/
def addClientCertPemFile (b : ClientConfigBuilder) (file : Option (List Char)) : Res Bytes ClientConfigBuilder := do
  let c ← Certificate.fromPemX509 file
  b.addClientCertPem c

/-- net/client/config.rs:50-57 `add_client_key_pem`. -/
def addClientKeyPemFile (b : ClientConfigBuilder) (file : Option (List Char)) : Res Bytes ClientConfigBuilder := do
  let k ← PrivateKey.fromPem file
  b.addClientKeyPem k

end ClientConfigBuilder

end ATLS.Model
