import Verif.Spec.Hello
import Verif.Spec.Handshake
/-
Which ServerHello a TLS 1.3 client may accept.
-/
namespace ATLS.Spec.Tls13
open ATLS ATLS.Spec

/-- RFC 8446 section 4.1.3: `message` is a ServerHello that answers a ClientHello with the session id `sid`, which offers the three suites, TLS 1.3 and
one X25519 share, and no other extension to which a ServerHello may have an answer: the session id is sent back, the suite is one of those offered,
and the extensions are one X25519 share and TLS 1.3 as the selected version. -/
def Permitted (sid message : Bytes) : Prop :=
  ∃ m : ServerHelloMsg, m.Valid ∧ message = handshakeMessage 2#8 m.bytes ∧ m.sessionId = sid ∧ m.suite ∈ [0x1301, 0x1302, 0x1303] ∧
    ∃ key : Bytes, key.length = 32 ∧ m.exts.Perm [.keyShare (29, key), .supportedVersions 0x0304]

/-- The part of it that does not depend on the ClientHello's session id: `message` starts with a ServerHello (type 2) for the legacy version 0x0303, whose
suite is one of the three, and which contains an extension supported_versions (43) with the value 0x0304 and an extension key_share (51) with the group
X25519 (29) and the key `key`. -/
def Selects13 (message key : Bytes) : Prop :=
  ∃ (body random sid compression exts ignored after : Bytes) (suite : Nat), message = handshakeMessage 2#8 body ++ after ∧
    body = [3#8, 3#8] ++ random ++ sid ++ beBytes 2 suite ++ compression ++ vec2 exts ++ ignored ∧
    random.length = 32 ∧ (sid = [0#8] ∨ sid.length = 33) ∧ compression.length = 1 ∧ suite ∈ [0x1301, 0x1302, 0x1303] ∧
    (∃ size : Bytes, size.length = 2 ∧ beBytes 2 43 ++ size ++ beBytes 2 0x0304 <:+: exts) ∧
    ∃ size : Bytes, size.length = 2 ∧ beBytes 2 51 ++ size ++ share (29, key) <:+: exts

end ATLS.Spec.Tls13
