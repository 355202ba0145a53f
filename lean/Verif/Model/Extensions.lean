import Verif.Model.Bytes
import Verif.Model.Alert
import Verif.Model.Utf8
/-
Model of `anothertls/src/net/extensions/*.rs`.

A Rust `String` is the list of its UTF-8 bytes. The loops over `consumed` work on the suffix `buf[consumed..]` (empty once
`consumed >= buf.len()`); every iteration shortens it, the fuel passed by the entry points is the length of the buffer.
-/
namespace ATLS.Model
open ATLS

/-- net/extensions/named_groups.rs:7-21 `NamedGroup`. -/
inductive NamedGroup where
  | secp256r1 | secp384r1 | secp521r1 | x25519 | x448
  | ffdhe2048 | ffdhe3072 | ffdhe4096 | ffdhe6144 | ffdhe8192
  deriving DecidableEq, Repr

/-- net/extensions/named_groups.rs, supported_groups.rs:34: `group as u16` -/
def NamedGroup.code : NamedGroup → Nat
  | .secp256r1 => 0x0017
  | .secp384r1 => 0x0018
  | .secp521r1 => 0x0019
  | .x25519 => 0x001D
  | .x448 => 0x001E
  | .ffdhe2048 => 0x0100
  | .ffdhe3072 => 0x0101
  | .ffdhe4096 => 0x0102
  | .ffdhe6144 => 0x0103
  | .ffdhe8192 => 0x0104

/-- net/extensions/named_groups.rs:24-38 `NamedGroup::new`. -/
def NamedGroup.new (num : Nat) : Option NamedGroup :=
  if num = 0x0017 then some .secp256r1
  else if num = 0x0018 then some .secp384r1
  else if num = 0x0019 then some .secp521r1
  else if num = 0x001D then some .x25519
  else if num = 0x001E then some .x448
  else if num = 0x0100 then some .ffdhe2048
  else if num = 0x0101 then some .ffdhe3072
  else if num = 0x0102 then some .ffdhe4096
  else if num = 0x0103 then some .ffdhe6144
  else if num = 0x0104 then some .ffdhe8192
  else none

/-- net/extensions/shared.rs:77-88 `ExtensionType`. -/
inductive ExtensionType where
  | serverName | supportedGroups | signatureAlgorithms | supportedVersions | keyShare
  deriving DecidableEq, Repr

/-- net/extensions/shared.rs:91-106 `ExtensionType::new`; the codes of `signature_algorithms` and `supported_groups` are commented out. -/
def ExtensionType.new (val : Nat) : Option ExtensionType :=
  if val = 0x00 then some .serverName
  else if val = 0x2b then some .supportedVersions
  else if val = 0x33 then some .keyShare
  else none

/-! #### key_share -/

/-- net/extensions/key_share.rs:14-17 `KeyShareEntry`. -/
structure KeyShareEntry where
  group : NamedGroup
  opaq : Bytes
  deriving DecidableEq, Repr

/-- net/extensions/key_share.rs:22-36 `KeyShareEntry::parse`. `public_key_len + 4` is a `u16` addition. -/
def KeyShareEntry.parse (buf : Bytes) : Res TlsError (Nat × KeyShareEntry) := do
  let group ← Res.okOr .illegalParameter (NamedGroup.new (toU16 buf))
  let publicKeyLen := toU16 (← sliceFrom buf 2)
  if publicKeyLen + 4 ≥ 65536 then .panic
  else do
    let opq ← slice buf 4 (publicKeyLen + 4)
    .ok (4 + publicKeyLen, ⟨group, opq⟩)

/-- net/extensions/key_share.rs:37-49 `KeyShareEntry::as_bytes`: the share is written in reverse order; other groups are `todo!()`. -/
def KeyShareEntry.asBytes (k : KeyShareEntry) : Res TlsError Bytes :=
  match k.group with
  | .x25519 => .ok ([0x00#8, 0x1d#8, 0x00#8, 0x20#8] ++ k.opaq.reverse)
  | _ => .panic

/-- net/extensions/key_share.rs:53 `KeyShare`. -/
structure KeyShare where
  entries : List KeyShareEntry
  deriving DecidableEq, Repr

/-- net/extensions/key_share.rs:66-77: the loop of `KeyShare::parse`, with `rest = buf[consumed..]`. An iteration that continues has
used at least 8 bytes. -/
def KeyShare.parseLoop : Nat → Bytes → Nat → Nat → List KeyShareEntry → Res TlsError (List KeyShareEntry)
  | 0, _, _, _, _ => .panic
  | fuel + 1, rest, consumed, len, entries => do
    let (used, entry) ← KeyShareEntry.parse rest
    if used ≤ 7 then .ok entries
    else if consumed + used ≥ len then .ok (entries ++ [entry])
    else KeyShare.parseLoop fuel (rest.drop used) (consumed + used) len (entries ++ [entry])

/-- net/extensions/key_share.rs:58-79 `KeyShare::parse`. `&buf[2..]` panics on a shorter buffer. -/
def KeyShare.parse (buf : Bytes) (isClient : Bool) : Res TlsError KeyShare := do
  let rest ← sliceFrom buf (if isClient then 0 else 2)
  let entries ← KeyShare.parseLoop (buf.length + 1) rest (if isClient then 0 else 2) (if isClient then 0 else toU16 buf) []
  .ok ⟨entries⟩

/-- net/extensions/key_share.rs:94-103 `server_as_bytes`. -/
def KeyShare.serverAsBytes (k : KeyShare) : Res TlsError Bytes := do
  let body ← match k.entries with
    | [e] => e.asBytes
    | _ => .ok []
  .ok ([0x00#8, 0x33#8, BitVec.ofNat 8 (body.length >>> 8), BitVec.ofNat 8 body.length] ++ body)

/-- net/extensions/key_share.rs:104-116 `client_as_bytes`: each entry is preceded by its own length. -/
def KeyShare.clientAsBytes (k : KeyShare) : Res TlsError Bytes := do
  let raws ← k.entries.mapM KeyShareEntry.asBytes
  let body := (raws.map fun raw => [BitVec.ofNat 8 (raw.length >>> 8), BitVec.ofNat 8 raw.length] ++ raw).flatten
  .ok ([0x00#8, 0x33#8, BitVec.ofNat 8 (body.length >>> 8), BitVec.ofNat 8 body.length] ++ body)

/-! #### server_name -/

/-- net/extensions/server_name.rs:12-30 `ServerName::server_as_bytes` (a `ServerName` is its bytes). -/
def ServerName.serverAsBytes (name : Bytes) : Bytes :=
  let hostnameLen := name.length
  let listEntryLen := hostnameLen + 3
  let listLen := listEntryLen + 2
  [0x00#8, 0x00#8, BitVec.ofNat 8 (listLen >>> 8), BitVec.ofNat 8 listLen,
    BitVec.ofNat 8 (listEntryLen >>> 8), BitVec.ofNat 8 listEntryLen, 0x00#8,
    BitVec.ofNat 8 (hostnameLen >>> 8), BitVec.ofNat 8 hostnameLen] ++ name

/-- net/extensions/server_name.rs:32-55 `ServerName::server_parse`. -/
def ServerName.serverParse (buf : Bytes) : Res TlsError Bytes :=
  if toU16 buf > 0 then do
    let nameType ← idx buf 2
    if nameType ≠ 0#8 then .err .decodeError
    else do
      let serverNameLen := toU16 (← sliceFrom buf 3)
      let name ← slice buf 5 (serverNameLen + 5)
      if utf8Valid name then .ok name else .err .decodeError
  else .ok []

/-! #### signature_algorithms -/

/-- net/extensions/signature_algorithm.rs:11-40 `SignatureScheme`. -/
inductive SignatureScheme where
  | ecdsaSecp256r1Sha256 | ecdsaSecp384r1Sha384 | ecdsaSecp521r1Sha512
  deriving DecidableEq, Repr

/-- net/extensions/signature_algorithm.rs:88: `scheme as u16` -/
def SignatureScheme.code : SignatureScheme → Nat
  | .ecdsaSecp256r1Sha256 => 0x0403
  | .ecdsaSecp384r1Sha384 => 0x0503
  | .ecdsaSecp521r1Sha512 => 0x0603

/-- net/extensions/signature_algorithm.rs:43-50 `SignatureScheme::new`. -/
def SignatureScheme.new (buf : Nat) : Res TlsError SignatureScheme :=
  if buf = 0x0403 then .ok .ecdsaSecp256r1Sha256
  else if buf = 0x0503 then .ok .ecdsaSecp384r1Sha384
  else if buf = 0x0603 then .ok .ecdsaSecp521r1Sha512
  else .err .decodeError

/-- net/extensions/signature_algorithm.rs:88-90, supported_groups.rs:34-36: The two bytes of a `u16` as pushed in several encoders. -/
def u16Bytes (v : Nat) : Bytes := [BitVec.ofNat 8 (v >>> 8), BitVec.ofNat 8 v]

/-- net/extensions/signature_algorithm.rs:77-93 `server_as_bytes`. `len as u8 + 2` is a `u8` addition. -/
def SignatureAlgorithms.serverAsBytes (schemes : List SignatureScheme) : Res TlsError Bytes :=
  let len := schemes.length * 2
  if len % 256 + 2 ≥ 256 then .panic
  else .ok ([0x00#8, 0x0d#8, BitVec.ofNat 8 (len >>> 8), BitVec.ofNat 8 (len % 256 + 2), BitVec.ofNat 8 (len >>> 8), BitVec.ofNat 8 len]
    ++ (schemes.map fun s => u16Bytes s.code).flatten)

/-- net/extensions/signature_algorithm.rs:102-105: the loop of `server_parse` over `i in (2..len).step_by(2)`; `n` iterations remain. -/
def SignatureAlgorithms.parseLoop (buf : Bytes) : Nat → Nat → List SignatureScheme → Res TlsError (List SignatureScheme)
  | 0, _, out => .ok out
  | n + 1, i, out => do
    let s ← slice buf i (i + 2)
    let scheme ← SignatureScheme.new (toU16 s)
    SignatureAlgorithms.parseLoop buf n (i + 2) (out ++ [scheme])

/-- net/extensions/signature_algorithm.rs:95-108 `server_parse`. An even `len` gives `(len - 2) / 2` steps (none for `len = 0`). -/
def SignatureAlgorithms.serverParse (buf : Bytes) : Res TlsError (List SignatureScheme) :=
  let len := toU16 buf
  if len % 2 = 0 then SignatureAlgorithms.parseLoop buf ((len - 2) / 2) 2 []
  else .ok []

/-! #### supported_groups, supported_versions -/

/-- net/extensions/supported_groups.rs:15-17 `SupportedGroups::supported`. -/
def SupportedGroups.supported : List NamedGroup := [.secp256r1, .x25519]

/-- net/extensions/supported_groups.rs:23-39 `client_as_bytes`. (`server_as_bytes` and `server_parse` are `todo!()`.) -/
def SupportedGroups.clientAsBytes (groups : List NamedGroup) : Res TlsError Bytes :=
  let len := groups.length * 2
  if len % 256 + 2 ≥ 256 then .panic
  else .ok ([0x00#8, 0x0a#8, BitVec.ofNat 8 (len >>> 8), BitVec.ofNat 8 (len % 256 + 2), BitVec.ofNat 8 (len >>> 8), BitVec.ofNat 8 len]
    ++ (groups.map fun s => u16Bytes s.code).flatten)

/-- net/extensions/supported_versions.rs:26-28 `server_as_bytes`. -/
def SupportedVersions.serverAsBytes : Bytes := [0x00#8, 0x2b#8, 0x00#8, 0x02#8, 0x03#8, 0x04#8]

/-- net/extensions/supported_versions.rs:29-31 `client_as_bytes`. -/
def SupportedVersions.clientAsBytes : Bytes := [0x00#8, 0x2b#8, 0x00#8, 0x03#8, 0x02#8, 0x03#8, 0x04#8]

/-- net/extensions/supported_versions.rs:39-43: the loop of `server_parse` over `i in (1..len+1).step_by(2)`; `n` iterations remain. -/
def SupportedVersions.parseLoop (buf : Bytes) : Nat → Nat → Res TlsError Bool
  | 0, _ => .ok false
  | n + 1, i => do
    let s ← slice buf i (i + 2)
    if toU16 s = 0x0304 then .ok true
    else SupportedVersions.parseLoop buf n (i + 2)

/-- net/extensions/supported_versions.rs:33-46 `server_parse`. -/
def SupportedVersions.serverParse (buf : Bytes) : Res TlsError Bool := do
  let b0 ← idx buf 0
  if b0.toNat % 2 = 0 then SupportedVersions.parseLoop buf (b0.toNat / 2) 1
  else .ok false

/-- net/extensions/supported_versions.rs:47-55 `client_parse`. -/
def SupportedVersions.clientParse (buf : Bytes) : Res TlsError Bool := do
  let s ← slice buf 0 2
  .ok (toU16 s = 0x0304)

/-! #### the extension lists -/

/-- net/extensions/client.rs:16-22 `ClientExtension`. -/
inductive ClientExtension where
  | supportedVersion (tls13 : Bool)
  | supportedGroups (groups : List NamedGroup)
  | keyShare (k : KeyShare)
  | serverName (name : Bytes)
  | signatureAlgorithms (schemes : List SignatureScheme)
  deriving DecidableEq, Repr

/-- `client_as_bytes` by dynamic dispatch (net/extensions/client.rs:24-34, shared.rs:18-20). -/
def ClientExtension.clientAsBytes : ClientExtension → Res TlsError Bytes
  | .supportedVersion _ => .ok SupportedVersions.clientAsBytes
  | .supportedGroups g => SupportedGroups.clientAsBytes g
  | .keyShare k => k.clientAsBytes
  | .serverName n => .ok (ServerName.serverAsBytes n)
  | .signatureAlgorithms s => SignatureAlgorithms.serverAsBytes s

/-- net/extensions/client.rs:40-68: the loop of `from_client_hello`, with `rest = buf[consumed..]`. -/
def fromClientHelloLoop : Nat → Bytes → List ClientExtension → Res TlsError (List ClientExtension)
  | 0, rest, acc => if rest = [] then .ok acc else .panic
  | fuel + 1, rest, acc =>
    if rest = [] then .ok acc
    else do
      let t ← slice rest 0 2
      let s ← slice rest 2 4
      let size := toU16 s
      match ExtensionType.new (toU16 t) with
      | none => fromClientHelloLoop fuel (rest.drop (4 + size)) acc
      | some .serverName => do
        let body ← slice rest 4 (4 + size)
        let e ← ServerName.serverParse body
        fromClientHelloLoop fuel (rest.drop (4 + size)) (acc ++ [.serverName e])
      | some .keyShare => do
        let body ← slice rest 4 (4 + size)
        let e ← KeyShare.parse body false
        fromClientHelloLoop fuel (rest.drop (4 + size)) (acc ++ [.keyShare e])
      | some .supportedVersions => do
        let e ← SupportedVersions.serverParse (rest.drop 4)
        fromClientHelloLoop fuel (rest.drop (4 + size)) (acc ++ [.supportedVersion e])
      | some .signatureAlgorithms => do
        let e ← SignatureAlgorithms.serverParse (rest.drop 4)
        fromClientHelloLoop fuel (rest.drop (4 + size)) (acc ++ [.signatureAlgorithms e])
      | some .supportedGroups => fromClientHelloLoop fuel (rest.drop 4) acc

/-- net/extensions/client.rs:36-70 `from_client_hello`. -/
def ClientExtension.fromClientHello (buf : Bytes) : Res TlsError (List ClientExtension) :=
  fromClientHelloLoop buf.length buf []

/-- net/extensions/server.rs:14-18 `ServerExtension`. -/
inductive ServerExtension where
  | supportedVersions (tls13 : Bool)
  | keyShare (k : KeyShare)
  | signatureAlgorithms (schemes : List SignatureScheme)
  deriving DecidableEq, Repr

/-- `server_as_bytes` by dynamic dispatch (net/extensions/server.rs:20-28). -/
def ServerExtension.serverAsBytes : ServerExtension → Res TlsError Bytes
  | .supportedVersions _ => .ok SupportedVersions.serverAsBytes
  | .keyShare k => k.serverAsBytes
  | .signatureAlgorithms s => SignatureAlgorithms.serverAsBytes s

/-- net/extensions/server.rs:38-63: the loop of `from_server_hello`. For a type that is known but not handled (`server_name`) the
`continue` leaves `consumed` after the extension header. `client_parse` of `SignatureAlgorithms` is the trait default, which is
`server_parse` (net/extensions/shared.rs:12-17). -/
def fromServerHelloLoop : Nat → Bytes → List ServerExtension → Res TlsError (List ServerExtension)
  | 0, rest, acc => if rest = [] then .ok acc else .panic
  | fuel + 1, rest, acc =>
    if rest = [] then .ok acc
    else do
      let t ← slice rest 0 2
      let s ← slice rest 2 4
      let size := toU16 s
      match ExtensionType.new (toU16 t) with
      | none => fromServerHelloLoop fuel (rest.drop (4 + size)) acc
      | some .keyShare => do
        let body ← slice rest 4 (4 + size)
        let e ← KeyShare.parse body true
        fromServerHelloLoop fuel (rest.drop (4 + size)) (acc ++ [.keyShare e])
      | some .supportedVersions => do
        let e ← SupportedVersions.clientParse (rest.drop 4)
        fromServerHelloLoop fuel (rest.drop (4 + size)) (acc ++ [.supportedVersions e])
      | some .signatureAlgorithms => do
        let e ← SignatureAlgorithms.serverParse (rest.drop 4)
        fromServerHelloLoop fuel (rest.drop (4 + size)) (acc ++ [.signatureAlgorithms e])
      | some _ => fromServerHelloLoop fuel (rest.drop 4) acc

/-- net/extensions/server.rs:33-65 `from_server_hello`. -/
def ServerExtension.fromServerHello (buf : Bytes) : Res TlsError (List ServerExtension) :=
  fromServerHelloLoop buf.length buf []

/-- net/extensions/certificate_request.rs:31-53: the loop of `from_request` (the result is a list of scheme lists). -/
def fromRequestLoop : Nat → Bytes → List (List SignatureScheme) → Res TlsError (List (List SignatureScheme))
  | 0, rest, acc => if rest = [] then .ok acc else .panic
  | fuel + 1, rest, acc =>
    if rest = [] then .ok acc
    else do
      let t ← slice rest 0 2
      let s ← slice rest 2 4
      let size := toU16 s
      match ExtensionType.new (toU16 t) with
      | none => fromRequestLoop fuel (rest.drop (4 + size)) acc
      | some .signatureAlgorithms => do
        let e ← SignatureAlgorithms.serverParse (rest.drop 4)
        fromRequestLoop fuel (rest.drop (4 + size)) (acc ++ [e])
      | some _ => fromRequestLoop fuel (rest.drop 4) acc

/-- net/extensions/certificate_request.rs:26-54 `from_request`. -/
def CertificateRequestExtensions.fromRequest (buf : Bytes) : Res TlsError (List (List SignatureScheme)) :=
  fromRequestLoop buf.length buf []

/-- net/extensions/shared.rs:52-69 `Extensions::as_bytes`, on the encodings of the elements. -/
def extensionsAsBytes (exts : List Bytes) : Bytes :=
  if exts = [] then [0x00#8, 0x00#8]
  else [BitVec.ofNat 8 (exts.flatten.length >>> 8), BitVec.ofNat 8 exts.flatten.length] ++ exts.flatten

end ATLS.Model
