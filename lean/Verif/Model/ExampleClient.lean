import Verif.Model.Client
import Verif.Model.Utf8
import Verif.Model.Files
/-
The example clients: a process that fetches one page.
-/
namespace ATLS.Model
open ATLS

/-- examples/src/bin/client_https.rs:17: the server name. -/
def localhost : Bytes := ascii "localhost"

/-- examples/src/bin/client_https.rs:20-24: the configuration. -/
def clientHttpsConfig : Res Bytes ClientConfig := (ClientConfigBuilder.new.setServerName localhost).enableKeylog.build

/-- examples/src/bin/client_client_auth.rs:14-21: the configuration, given the contents of the certificate and key files. -/
def clientAuthConfig (cert key : Option (List Char)) : Res Bytes ClientConfig := do
  let b ← ClientConfigBuilder.new.addClientCertPemFile cert
  let b ← b.addClientKeyPemFile key
  (b.setServerName localhost).enableKeylog.build

/-- examples/src/bin/client_https.rs:31-38, client_client_auth.rs:28-35: the request. The line of `Host` ends in the source's line feed, the others in `\r\n`. -/
def pageRequest (serverName : Bytes) : Bytes :=
  ascii "GET / HTTP/1.1\r\n" ++ (ascii "Host: " ++ serverName ++ ascii "\n") ++ ascii "User-Agent: AnotherTls/0.1\r\n" ++ ascii "\r\n"

/-- What the process did: the bytes it sent, and the response it printed, if it did not panic before. -/
structure Fetched where
  sent : Bytes
  printed : Option Bytes
deriving DecidableEq

/-- examples/src/bin/client_https.rs:27-48, client_client_auth.rs:24-45: `main` from the TCP connection on, for the server name given to the configuration. Every
error ends in a panic by `expect` or `unwrap`, which is `printed = none`; what was sent before stays sent. -/
def fetch (serverName : Bytes) (env : ClientEnv) (rng : List Bytes) (sock : Socket) : Fetched :=
  match ClientConnection.connect env rng sock with
  | (.ok s, _) =>
    match s.tlsWrite (pageRequest serverName) with
    | (.ok (), s) =>
      match s.tlsRead 4096 with
      | (.ok response, s) => ⟨s.stream.written, if utf8Valid response then some response else none⟩
      | (_, s) => ⟨s.stream.written, none⟩
    | (_, s) => ⟨s.stream.written, none⟩
  | (_, some h) => ⟨h.stream.stream.written, none⟩
  | (_, none) => ⟨[], none⟩

end ATLS.Model
