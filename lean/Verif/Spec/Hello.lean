import Verif.Spec.Common
/-
RFC 8446 section 4.1.2, 4.1.3, 4.2: the wire format of ClientHello and ServerHello, restricted to the extensions the library reads
(server_name with one host name, supported_versions, key_share); every other extension is an opaque body. Numbers are IANA code points.
-/
namespace ATLS.Spec.Tls13
open ATLS ATLS.Spec

/-- `opaque body<0..2^16-1>`: a vector with a two-byte length. -/
def vec2 (b : Bytes) : Bytes := beBytes 2 b.length ++ b

/-- A list of 16-bit numbers without its length. -/
def u16s (l : List Nat) : Bytes := (l.map (beBytes 2)).flatten

/-- Extensions of a ClientHello. -/
inductive ClientExt where
  | serverName (name : Bytes)
  | supportedVersions (versions : List Nat)
  | keyShare (shares : List (Nat × Bytes))
  | other (typ : Nat) (body : Bytes)

/-- `struct { NamedGroup group; opaque key_exchange<1..2^16-1>; } KeyShareEntry` -/
def share (s : Nat × Bytes) : Bytes := beBytes 2 s.1 ++ vec2 s.2

/-- extension_type -/
def ClientExt.typ : ClientExt → Nat
  | .serverName _ => 0
  | .supportedVersions _ => 43
  | .keyShare _ => 51
  | .other t _ => t

/-- extension_data -/
def ClientExt.body : ClientExt → Bytes
  | .serverName n => vec2 (0#8 :: vec2 n)
  | .supportedVersions vs => beBytes 1 (2 * vs.length) ++ u16s vs
  | .keyShare l => vec2 (l.map share).flatten
  | .other _ b => b

/-- `struct { ExtensionType extension_type; opaque extension_data<0..2^16-1>; } Extension` -/
def ClientExt.bytes (e : ClientExt) : Bytes := beBytes 2 e.typ ++ vec2 e.body

/-- Range conditions of the RFC for one extension (the RFC also wants a host name to be non-empty). -/
def ClientExt.Valid : ClientExt → Prop
  | .serverName _ => True
  | .supportedVersions vs => 1 ≤ vs.length ∧ vs.length ≤ 127 ∧ ∀ v ∈ vs, v < 65536
  | .keyShare l => ∀ s ∈ l, s.1 < 65536 ∧ 1 ≤ s.2.length
  | .other t _ => t < 65536 ∧ t ≠ 0 ∧ t ≠ 43 ∧ t ≠ 51

/-- RFC 8446 4.1.2 `ClientHello` with legacy_version 0x0303 and compression methods {null}. -/
structure ClientHelloMsg where
  random : Bytes
  sessionId : Bytes
  suites : List Nat
  exts : List ClientExt

/-- The wire encoding of a ClientHello. -/
def ClientHelloMsg.bytes (h : ClientHelloMsg) : Bytes :=
  beBytes 2 0x0303 ++ h.random ++ (beBytes 1 h.sessionId.length ++ h.sessionId) ++ vec2 (u16s h.suites) ++ [1#8, 0#8] ++
    vec2 (h.exts.map ClientExt.bytes).flatten

/-- Range conditions of the RFC. -/
structure ClientHelloMsg.Valid (h : ClientHelloMsg) : Prop where
  random : h.random.length = 32
  sessionId : h.sessionId.length ≤ 32
  suites : 1 ≤ h.suites.length ∧ 2 * h.suites.length < 65536 ∧ ∀ c ∈ h.suites, c < 65536
  exts : ∀ e ∈ h.exts, e.Valid
  len : 8 ≤ (h.exts.map ClientExt.bytes).flatten.length ∧ (h.exts.map ClientExt.bytes).flatten.length < 65536

/-- Extensions of a ServerHello. -/
inductive ServerExt where
  | supportedVersions (version : Nat)
  | keyShare (s : Nat × Bytes)
  | other (typ : Nat) (body : Bytes)

/-- extension_type -/
def ServerExt.typ : ServerExt → Nat
  | .supportedVersions _ => 43
  | .keyShare _ => 51
  | .other t _ => t

/-- extension_data -/
def ServerExt.body : ServerExt → Bytes
  | .supportedVersions v => beBytes 2 v
  | .keyShare s => share s
  | .other _ b => b

/-- The wire encoding of one extension. -/
def ServerExt.bytes (e : ServerExt) : Bytes := beBytes 2 e.typ ++ vec2 e.body

/-- Range conditions of the RFC for one extension. -/
def ServerExt.Valid : ServerExt → Prop
  | .supportedVersions v => v < 65536
  | .keyShare s => s.1 < 65536 ∧ 1 ≤ s.2.length
  | .other t _ => t < 65536 ∧ t ≠ 0 ∧ t ≠ 43 ∧ t ≠ 51

/-- RFC 8446 4.1.3 `ServerHello`. -/
structure ServerHelloMsg where
  random : Bytes
  sessionId : Bytes
  suite : Nat
  exts : List ServerExt

/-- The wire encoding of a ServerHello. -/
def ServerHelloMsg.bytes (h : ServerHelloMsg) : Bytes :=
  beBytes 2 0x0303 ++ h.random ++ (beBytes 1 h.sessionId.length ++ h.sessionId) ++ beBytes 2 h.suite ++ [0#8] ++
    vec2 (h.exts.map ServerExt.bytes).flatten

/-- Range conditions of the RFC. -/
structure ServerHelloMsg.Valid (h : ServerHelloMsg) : Prop where
  random : h.random.length = 32
  sessionId : h.sessionId.length ≤ 32
  suite : h.suite < 65536
  exts : ∀ e ∈ h.exts, e.Valid
  len : (h.exts.map ServerExt.bytes).flatten.length < 65536

end ATLS.Spec.Tls13
