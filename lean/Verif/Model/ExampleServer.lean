import Verif.Model.Server
import Verif.Model.Utf8
import Verif.Model.Files
/-
The example servers: a process that serves one connection after the other, and ends with the first panic.
-/
namespace ATLS.Model
open ATLS

/-- examples/src/bin/server_https.rs:51-57: the response. -/
def helloWorld : Bytes :=
  ascii "HTTP/1.1 200\r\n" ++ ascii "Server: AnotherTls/1.0\r\n" ++ ascii "Content-Type: text/html; charset=utf-8\r\n" ++ ascii "Content-Length: 12\r\n" ++ ascii "\r\n" ++
    ascii "Hello world!"

/-- examples/src/bin/server_client_auth.rs:58-69: the response; `body.len()` is 13. -/
def helloAdmin : Bytes :=
  ascii "HTTP/1.1 200\r\n" ++ ascii "Server: AnotherTls/1.0\r\n" ++ ascii "Content-Type: text/html; charset=utf-8\r\n" ++ ascii "Content-Length: 13\r\n" ++ ascii "\r\n" ++
    ascii "Hello admin!\n"

/-- examples/src/bin/server_client_auth.rs:17-23: the custom function of the example with client authentication. -/
def isOtsmr (x : X509) : Bool :=
  match x.subject.get "commonName" with
  | .ok name => name = ascii "otsmr"
  | _ => false

/-- examples/src/bin/server_https.rs:15-20: the configuration, given the contents of the certificate and key files; an error ends the process. -/
def serverHttpsConfig (cert key : Option (List Char)) : Res Bytes ServerConfig := do
  let b ← ServerConfigBuilder.new.enableKeylog.addCertPemFile cert
  let b ← b.addPrivkeyPemFile key
  b.build

/-- examples/src/bin/server_client_auth.rs:15-27: the configuration, given the contents of the three files. -/
def serverAuthConfig (ca cert key : Option (List Char)) : Res Bytes ServerConfig := do
  let b ← ((ServerConfigBuilder.new.setKeylogPath (ascii "./examples/src/bin/config/keylog.txt")).setClientCertCustomVerifyFn isOtsmr).addClientCertCaFile ca
  let b ← b.addCertPemFile cert
  let b ← b.addPrivkeyPemFile key
  b.build

/-- One TCP connection to the server: the configuration with the clock and the nonces at that time, the reads of `/dev/urandom` and the socket. -/
structure Visit where
  env : ServerEnv
  rng : List Bytes
  sock : Socket

/-- What becomes of a connection: the bytes sent on it when the loop goes on, or the end of the process. -/
inductive Served where
  | done (sent : Bytes)
  | crashed
deriving DecidableEq

/-- examples/src/bin/server_https.rs:26-62, server_client_auth.rs:34-74: the body of the loop for one connection, after the TCP connection is accepted. The text
printed is not modelled, but for `String::from_utf8(buf[..n - 4].to_vec()).unwrap()`, which panics on less than 4 bytes (integer underflow or an index out of range) and on text
that is not UTF-8. -/
def serveOne (page : Bytes) (v : Visit) : Served :=
  match ServerConnection.accept v.env v.rng v.sock with
  | (.panic, _) => .crashed
  | (.err _, h) => .done h.stream.stream.written
  | (.ok s, _) =>
    match s.tlsRead 4096 with
    | (.panic, _) => .crashed
    | (.err _, s) => .done s.stream.written
    | (.ok request, s) =>
      if request.length < 4 then .crashed
      else if ¬ utf8Valid (request.take (request.length - 4)) then .crashed
      else match s.tlsWrite page with
        | (.panic, _) => .crashed
        | (_, s) => .done s.stream.written

/-- examples/src/bin/server_https.rs:26, server_client_auth.rs:34: the loop over the connections: what each gets, up to the first crash. -/
def serve (page : Bytes) : List Visit → List Served
  | [] => []
  | v :: vs =>
    match serveOne page v with
    | .crashed => [.crashed]
    | .done sent => .done sent :: serve page vs

end ATLS.Model
