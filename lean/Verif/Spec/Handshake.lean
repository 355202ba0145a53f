import Verif.Spec.Record
import Verif.Spec.Certificate
/-
RFC 8446: what the two ends of a handshake without PSK put on the wire, as relations between byte strings.
-/
namespace ATLS.Spec.Tls13
open ATLS ATLS.Spec

/-- Section 4: a handshake message: type, 24-bit length, body. -/
def handshakeMessage (type : Byte) (body : Bytes) : Bytes := [type] ++ beBytes 3 body.length ++ body

/-- Section 5.1: `wire` is a record of this type with this content, without protection, with any value in the version field. -/
def IsRecord (type : Byte) (content wire : Bytes) : Prop :=
  ∃ v1 v2 : Byte, content.length < 2 ^ 16 ∧ wire = [type, v1, v2] ++ beBytes 2 content.length ++ content

/-- Section 5.1: the record the sender writes, with legacy_record_version 0x0303. -/
def plainRecord (type : Byte) (content : Bytes) : Bytes := [type, 3#8, 3#8] ++ beBytes 2 content.length ++ content

/-- A sequence of records none of which has the type `type`. -/
inductive RecordsWithout (type : Byte) : Bytes → Prop
  | nil : RecordsWithout type []
  | cons (t : Byte) (content wire rest : Bytes) : t ≠ type → IsRecord t content wire → RecordsWithout type rest → RecordsWithout type (wire ++ rest)

/-- An AEAD: key, nonce, plaintext and additional data to ciphertext and tag. -/
abbrev Seal := Bytes → Bytes → Bytes → Bytes → Option (Bytes × Bytes)

/-- `wire` is a record whose body is the AEAD encryption, under the key and the nonce of sequence number `seq` and with the record's header as
additional data, of `content`, its type and any number of zeros. -/
def Carries (aead : Seal) (key iv : Bytes) (seq : Nat) (type : Byte) (content wire : Bytes) : Prop :=
  ∃ (header ct tag : Bytes) (padding : Nat), header.length = 5 ∧ tag.length = 16 ∧ wire = header ++ ct ++ tag ∧
    (ct ++ tag).length < 2 ^ 16 ∧ header.drop 3 = beBytes 2 (ct ++ tag).length ∧
    aead key (nonce iv seq) (content ++ [type] ++ zeros padding) header = some (ct, tag)

/-- `wire` is a record, and its type is neither change_cipher_spec nor alert. -/
def OtherRecord (wire : Bytes) : Prop := ∃ (type : Byte) (content : Bytes), type ∉ [20#8, 21#8] ∧ IsRecord type content wire

/-- `wire` consists of records that carry, in order and with consecutive sequence numbers from `seq`, the handshake contents `contents`; between
them there may be change_cipher_spec records. -/
inductive Carried (aead : Seal) (key iv : Bytes) : Nat → List Bytes → Bytes → Prop
  | nil (seq : Nat) : Carried aead key iv seq [] []
  | ccs (seq : Nat) (contents : List Bytes) (content wire rest : Bytes) : IsRecord 20#8 content wire → Carried aead key iv seq contents rest →
      Carried aead key iv seq contents (wire ++ rest)
  | cons (seq : Nat) (content : Bytes) (contents : List Bytes) (wire rest : Bytes) : Carries aead key iv seq 22#8 content wire → OtherRecord wire →
      Carried aead key iv (seq + 1) contents rest → Carried aead key iv seq (content :: contents) (wire ++ rest)

/-- `wire` is exactly the sequence of protected records of section 5.2, without padding, for the handshake messages `contents`, with sequence
numbers from `seq`. -/
def Sent (aead : Seal) (key iv : Bytes) : Nat → List Bytes → Bytes → Prop
  | _, [], wire => wire = []
  | seq, m :: ms, wire => ∃ ct tag rest : Bytes,
      aead key (nonce iv seq) (m ++ [22#8]) (protectedHeader (m.length + 1)) = some (ct, tag) ∧
      wire = protectedHeader (m.length + 1) ++ ct ++ tag ++ rest ∧ Sent aead key iv (seq + 1) ms rest

/-- Section 5.2: `wire` is the protected record for `content` of type `type`, with any number of zeros as padding that fits. -/
def Protected (aead : Seal) (key iv : Bytes) (seq : Nat) (type : Byte) (content wire : Bytes) : Prop :=
  ∃ (ct tag : Bytes) (padding : Nat), content.length + padding + 17 < 2 ^ 16 ∧ wire = protectedHeader (content.length + 1 + padding) ++ ct ++ tag ∧
    aead key (nonce iv seq) (content ++ [type] ++ zeros padding) (protectedHeader (content.length + 1 + padding)) = some (ct, tag)

/-- `records` are the protected records for the handshake contents `contents`, one each, with consecutive sequence numbers from `seq`; between them
there may be change_cipher_spec records. -/
inductive ProtectedFlight (aead : Seal) (key iv : Bytes) : Nat → List Bytes → List Bytes → Prop
  | nil (seq : Nat) : ProtectedFlight aead key iv seq [] []
  | ccs (seq : Nat) (contents : List Bytes) (content wire : Bytes) (records : List Bytes) : IsRecord 20#8 content wire →
      ProtectedFlight aead key iv seq contents records → ProtectedFlight aead key iv seq contents (wire :: records)
  | cons (seq : Nat) (content : Bytes) (contents : List Bytes) (wire : Bytes) (records : List Bytes) : Protected aead key iv seq 22#8 content wire →
      ProtectedFlight aead key iv (seq + 1) contents records → ProtectedFlight aead key iv seq (content :: contents) (wire :: records)

/-- Section 4.3.2: a CertificateRequest with the extension signature_algorithms (13) as its only one. -/
def certificateRequest (context : Bytes) (schemes : List Nat) : Bytes :=
  let list := (schemes.map (beBytes 2)).flatten
  let body := beBytes 2 list.length ++ list
  let extension := beBytes 2 13 ++ beBytes 2 body.length ++ body
  beBytes 1 context.length ++ context ++ beBytes 2 extension.length ++ extension

/-- Section 4.3.2: a CertificateRequest with the extensions `extensions` (type, content). By section 4.2 server_name (0), supported_versions (43) and
key_share (51) do not occur in it. -/
def IsCertificateRequest (request : Bytes) : Prop :=
  ∃ (context : Bytes) (extensions : List (Nat × Bytes)), context.length < 256 ∧
    (∀ e ∈ extensions, e.1 < 2 ^ 16 ∧ e.1 ∉ [0, 43, 51] ∧ e.2.length < 2 ^ 16) ∧
    ∃ list : Bytes, list = (extensions.map fun e => beBytes 2 e.1 ++ beBytes 2 e.2.length ++ e.2).flatten ∧ list.length < 2 ^ 16 ∧
      request = beBytes 1 context.length ++ context ++ beBytes 2 list.length ++ list

/-- What the two hellos determine: the hash and the key length of the suite, the shared secret and the transcript ClientHello, ServerHello. -/
structure Session where
  hash : Hash
  keyLength : Nat
  ecdhe : Bytes
  hellos : Bytes

/-- The handshake traffic secret, key and IV of each end. -/
def Session.secret (s : Session) (side : Side) : Bytes := handshakeTrafficSecret s.hash s.ecdhe (s.hash.H s.hellos) side
def Session.key (s : Session) (side : Side) : Bytes := writeKey s.hash (s.secret side) s.keyLength
def Session.iv (s : Session) (side : Side) : Bytes := writeIv s.hash (s.secret side) 12

/-- The Finished message of an end after the transcript `messages`. -/
def Session.finished (s : Session) (side : Side) (messages : Bytes) : Bytes :=
  handshakeMessage 20#8 (verifyData s.hash (s.secret side) (s.hash.H messages))

/-- The application traffic secret, key and IV of each end, `messages` being the transcript up to the server's Finished. -/
def Session.appSecret (s : Session) (messages : Bytes) (side : Side) : Bytes := applicationTrafficSecret s.hash s.ecdhe (s.hash.H messages) side
def Session.appKey (s : Session) (messages : Bytes) (side : Side) : Bytes := writeKey s.hash (s.appSecret messages side) s.keyLength
def Session.appIv (s : Session) (messages : Bytes) (side : Side) : Bytes := writeIv s.hash (s.appSecret messages side) 12

end ATLS.Spec.Tls13
