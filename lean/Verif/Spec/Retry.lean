import Verif.Spec.Hello
import Verif.Spec.Handshake
/-
RFC 8446 section 4.1.4, 4.2.2, 4.2.8: the HelloRetryRequest, with which a server asks for a ClientHello with a share of another group.
-/
namespace ATLS.Spec.Tls13
open ATLS ATLS.Spec

/-- Section 4.1.3: the random value of a ServerHello that is a HelloRetryRequest, the SHA-256 hash of "HelloRetryRequest". -/
def retryRandom : Bytes := beBytes 32 0xCF21AD74E59A6111BE1D8C021E65B891C2A211167ABB8C5E079E09E2C8A8339C

/-- The extensions of a HelloRetryRequest. -/
inductive RetryExt where
  | version
  | group (selected : Nat)
  | cookie (value : Bytes)

/-- Section 4.2: `selected_version` is TLS 1.3, the body of key_share is `selected_group` alone. -/
def RetryExt.bytes : RetryExt → Bytes
  | .version => beBytes 2 43 ++ vec2 (beBytes 2 0x0304)
  | .group g => beBytes 2 51 ++ vec2 (beBytes 2 g)
  | .cookie c => beBytes 2 44 ++ vec2 (vec2 c)

/-- A HelloRetryRequest. -/
structure RetryRequest where
  sessionId : Bytes
  suite : Nat
  exts : List RetryExt

/-- The extensions on the wire. -/
def RetryRequest.extBytes (r : RetryRequest) : Bytes := (r.exts.map RetryExt.bytes).flatten

/-- Section 4.1.4: it has the structure of a ServerHello. -/
def RetryRequest.bytes (r : RetryRequest) : Bytes :=
  beBytes 2 0x0303 ++ retryRandom ++ (beBytes 1 r.sessionId.length ++ r.sessionId) ++ beBytes 2 r.suite ++ [0#8] ++ vec2 r.extBytes

/-- The handshake message. -/
def RetryRequest.message (r : RetryRequest) : Bytes := handshakeMessage 2#8 r.bytes

/-- What the RFC asks of a HelloRetryRequest to a client with the session id `sid` and the cipher suites of section B.4 it offers: it echoes the
session id, names one of the suites, names TLS 1.3 and asks for at most one group, which has a code of two bytes; a cookie is not empty. -/
structure RetryRequest.Valid (r : RetryRequest) (sid : Bytes) (suites : List Nat) : Prop where
  sessionId : r.sessionId = sid
  suite : r.suite ∈ suites
  version : .version ∈ r.exts
  groups : ∀ g, .group g ∈ r.exts → g < 65536
  one : ∀ g g', .group g ∈ r.exts → .group g' ∈ r.exts → g = g'
  cookies : ∀ c, .cookie c ∈ r.exts → 1 ≤ c.length
  len : r.extBytes.length < 65536

end ATLS.Spec.Tls13
