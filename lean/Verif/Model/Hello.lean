import Verif.Model.Extensions
import Verif.Model.Cipher
/-
Model of `anothertls/src/net/client/client_hello.rs` and of the parsing and encoding half of `anothertls/src/net/server/server_hello.rs`
(`from_client_hello` is in `Verif/Model/ServerHello.lean`).
-/
namespace ATLS.Model
open ATLS

/-- net/client/client_hello.rs:17-22 `ClientHello`. -/
structure ClientHello where
  random : Bytes
  cipherSuites : List CipherSuite
  legacySessionIdEcho : Option Bytes
  extensions : List ClientExtension
  deriving DecidableEq

/-- net/client/client_hello.rs:25-41 `ClientHello::new`. -/
def ClientHello.new (random : Bytes) (sessionId : Option Bytes) : ClientHello :=
  ⟨random, [.aes256GcmSha384, .aes128GcmSha256, .chacha20Poly1305Sha256], sessionId, []⟩

/-- net/client/connection.rs:155-191: the hello the client sends, from its random, session id, the bytes of its public key as returned by
`ibig_to_32bytes(.., Little)` and the configured server name. -/
def ClientHello.ofClient (random sessionId keyShareData : Bytes) (serverName : Option Bytes) : ClientHello :=
  { ClientHello.new random (some sessionId) with
    extensions := [.keyShare ⟨[⟨.x25519, keyShareData⟩]⟩, .supportedVersion true, .signatureAlgorithms [.ecdsaSecp256r1Sha256],
        .supportedGroups SupportedGroups.supported] ++
      (match serverName with
        | some n => [.serverName n]
        | none => []) }

/-- net/client/client_hello.rs:47-52 and net/server/server_hello.rs:208-213: the session id. -/
def sessionIdBytes : Option Bytes → Bytes
  | some s => BitVec.ofNat 8 s.length :: s
  | none => [0x00#8]

/-- net/client/client_hello.rs:42-72 `ClientHello::as_bytes` (on a hello whose extension list is marked as the client's, line 30). -/
def ClientHello.asBytes (c : ClientHello) : Res TlsError Bytes := do
  let exts ← c.extensions.mapM ClientExtension.clientAsBytes
  .ok ([0x03#8, 0x03#8] ++ c.random ++ sessionIdBytes c.legacySessionIdEcho ++ u16Bytes (c.cipherSuites.length * 2)
    ++ (c.cipherSuites.map fun cs => u16Bytes cs.asU16).flatten ++ [0x01#8, 0x00#8] ++ extensionsAsBytes exts)

/-- net/client/client_hello.rs:103-109: the loop over the offered suites, `n` pairs remain; unknown suites are skipped. -/
def ClientHello.suitesLoop (buf : Bytes) : Nat → Nat → List CipherSuite → Res TlsError (List CipherSuite)
  | 0, _, acc => .ok acc
  | n + 1, i, acc => do
    let a ← idx buf i
    let b ← idx buf (i + 1)
    ClientHello.suitesLoop buf n (i + 2)
      (match CipherSuite.new ((a.toNat <<< 8) ||| b.toNat) with
        | .ok cs => acc ++ [cs]
        | _ => acc)

/-- net/client/client_hello.rs:73-129 `ClientHello::from_raw`. -/
def ClientHello.fromRaw (buf : Bytes) : Res TlsError ClientHello :=
  if buf.length < 45 then .err .illegalParameter
  else do
    let v0 ← idx buf 0
    let v1 ← idx buf 1
    if (v0.toNat <<< 8) ||| v1.toNat ≠ 0x0303 then .err .protocolVersion
    else do
      let random ← slice buf 2 34
      let sessionIdLength ← idx buf 34
      let (consumed, sid) ← (if sessionIdLength ≠ 0#8 then do
          let s ← slice buf 35 (35 + 32)
          .ok (35 + 32, some s)
        else .ok (35, none) : Res TlsError (Nat × Option Bytes))
      let c0 ← idx buf consumed
      let c1 ← idx buf (consumed + 1)
      let suitesLen := (c0.toNat <<< 8) ||| c1.toNat
      if suitesLen % 2 ≠ 0 ∨ buf.length < consumed + suitesLen then .err .illegalParameter
      else do
        let consumed := consumed + 2
        let suites ← ClientHello.suitesLoop buf (suitesLen / 2) consumed []
        let consumed := consumed + suitesLen + 2
        let e0 ← idx buf consumed
        let e1 ← idx buf (consumed + 1)
        let extensionsLen := (e0.toNat <<< 8) ||| e1.toNat
        let extBuf ← slice buf (consumed + 2) (consumed + 2 + extensionsLen)
        let extensions ← ClientExtension.fromClientHello extBuf
        .ok ⟨random, suites, sid, extensions⟩

/-- net/client/client_hello.rs:131-140 `get_public_key_share`: the first entry of the first non-empty key share. -/
def ClientHello.getPublicKeyShare (c : ClientHello) : Option KeyShareEntry :=
  c.extensions.findSome? fun
    | .keyShare k => k.entries.head?
    | _ => none

/-- net/server/server_hello.rs:21-26 `ServerHello`. -/
structure ServerHello where
  random : Bytes
  legacySessionIdEcho : Option Bytes
  cipherSuite : CipherSuite
  extensions : List ServerExtension
  deriving DecidableEq

/-- net/server/server_hello.rs:60-68: whether the first `supported_versions` extension says TLS 1.3. -/
def ServerHello.tls13Supported (exts : List ServerExtension) : Bool :=
  (exts.findSome? fun
    | .supportedVersions b => some b
    | _ => none) = some true

/-- net/server/server_hello.rs:29-80 `ServerHello::from_raw`. -/
def ServerHello.fromRaw (buf : Bytes) : Res TlsError ServerHello :=
  if buf.length < 36 then .err .illegalParameter
  else do
    let v0 ← idx buf 0
    let v1 ← idx buf 1
    if (v0.toNat <<< 8) ||| v1.toNat ≠ 0x0303 then .err .protocolVersion
    else do
      let random ← slice buf 2 34
      let sessionIdLength ← idx buf 34
      let (consumed, sid) ← (if sessionIdLength ≠ 0#8 then do
          let s ← slice buf 35 (35 + 32)
          .ok (35 + 32, some s)
        else .ok (35, none) : Res TlsError (Nat × Option Bytes))
      let c0 ← idx buf consumed
      let c1 ← idx buf (consumed + 1)
      let cipherSuite ← CipherSuite.new ((c0.toNat <<< 8) ||| c1.toNat)
      let consumed := consumed + 3
      let e0 ← idx buf consumed
      let e1 ← idx buf (consumed + 1)
      let extensionsLen := (e0.toNat <<< 8) ||| e1.toNat
      let extBuf ← slice buf (consumed + 2) (consumed + 2 + extensionsLen)
      let extensions ← ServerExtension.fromServerHello extBuf
      if ServerHello.tls13Supported extensions = true then .ok ⟨random, sid, cipherSuite, extensions⟩
      else .err .protocolVersion

/-- net/server/server_hello.rs:204-223 `ServerHello::as_bytes` (on a hello whose extension list is not marked as a client's). -/
def ServerHello.asBytes (s : ServerHello) : Res TlsError Bytes := do
  let exts ← s.extensions.mapM ServerExtension.serverAsBytes
  .ok ([0x03#8, 0x03#8] ++ s.random ++ sessionIdBytes s.legacySessionIdEcho ++ u16Bytes s.cipherSuite.asU16 ++ [0x00#8]
    ++ extensionsAsBytes exts)

/-- net/server/server_hello.rs:224-233 `get_public_key_share`. -/
def ServerHello.getPublicKeyShare (s : ServerHello) : Option KeyShareEntry :=
  s.extensions.findSome? fun
    | .keyShare k => k.entries.head?
    | _ => none

end ATLS.Model
