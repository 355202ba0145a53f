import Verif.Spec.Hello
import Verif.Spec.Handshake
/-
Which ClientHello a TLS 1.3 server may accept.
-/
namespace ATLS.Spec.Tls13
open ATLS ATLS.Spec

/-- An extension: its type and its data. -/
def extension (e : Nat × Bytes) : Bytes := beBytes 2 e.1 ++ vec2 e.2

/-- RFC 8446 sections 4.1.2, 4.2 and 9.2: `message` is a ClientHello with which a server that authenticates with a certificate and knows the three
suites, X25519 and ecdsa_secp256r1_sha256 may go on: no extension occurs twice; one of the suites is offered; supported_versions contains TLS 1.3;
key_share contains an X25519 share; supported_groups (10) contains X25519; signature_algorithms (13) contains ecdsa_secp256r1_sha256. -/
def PermittedOffer (message : Bytes) : Prop :=
  ∃ m : ClientHelloMsg, m.Valid ∧ message = handshakeMessage 1#8 m.bytes ∧ (m.exts.map ClientExt.typ).Nodup ∧
    (∃ suite ∈ m.suites, suite ∈ [0x1301, 0x1302, 0x1303]) ∧
    (∃ versions, .supportedVersions versions ∈ m.exts ∧ 0x0304 ∈ versions) ∧
    (∃ shares key, .keyShare shares ∈ m.exts ∧ (29, key) ∈ shares ∧ key.length = 32) ∧
    (∃ groups, .other 10 (vec2 (u16s groups)) ∈ m.exts ∧ 29 ∈ groups) ∧
    ∃ schemes, .other 13 (vec2 (u16s schemes)) ∈ m.exts ∧ 0x0403 ∈ schemes

/-- The part of it that concerns what is selected: `message` starts with a ClientHello (type 1) for the legacy version 0x0303, which offers the suite
`suite`, one of the three. Among its extensions, after well-formed ones, is a key_share (51) whose first entry is the X25519 (29) key `key`. -/
def Offers13 (message : Bytes) (suite : Nat) (key : Bytes) : Prop :=
  ∃ (body random sid compression exts ignored after total shares behind : Bytes) (suites : List Nat) (before : List (Nat × Bytes)),
    message = handshakeMessage 1#8 body ++ after ∧
    body = [3#8, 3#8] ++ random ++ sid ++ vec2 (u16s suites) ++ compression ++ vec2 exts ++ ignored ∧
    random.length = 32 ∧ (sid = [0#8] ∨ sid.length = 33) ∧ compression.length = 2 ∧
    (∀ c ∈ suites, c < 65536) ∧ suite ∈ suites ∧ suite ∈ [0x1301, 0x1302, 0x1303] ∧
    exts = (before.map extension).flatten ++ extension (51, total ++ share (29, key) ++ shares) ++ behind ∧
    total.length = 2 ∧ (∀ e ∈ before, e.1 < 65536 ∧ e.2.length < 65536) ∧ (total ++ share (29, key) ++ shares).length < 65536

end ATLS.Spec.Tls13
