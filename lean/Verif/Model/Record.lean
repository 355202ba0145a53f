import Verif.Model.KeySchedule
/-
Model of `anothertls/src/net/record.rs`.
Methods taking `&mut self` return the new state also when they fail, because the sequence number advances before the cipher runs.
-/
namespace ATLS.Model
open ATLS

/-- net/record.rs:13-20 `RecordType`. -/
inductive RecordType where
  | invalid
  | changeCipherSpec
  | alert
  | handshake
  | applicationData
  deriving DecidableEq, Repr

/-- net/record.rs:75, 106, 173: `content_type as u8` -/
def RecordType.code : RecordType → Byte
  | .invalid => 0#8
  | .changeCipherSpec => 20#8
  | .alert => 21#8
  | .handshake => 22#8
  | .applicationData => 23#8

/-- net/record.rs:23-32 `RecordType::new`. -/
def RecordType.new (b : Byte) : Res TlsError RecordType :=
  if b = 0#8 then .ok .invalid
  else if b = 20#8 then .ok .changeCipherSpec
  else if b = 21#8 then .ok .alert
  else if b = 22#8 then .ok .handshake
  else if b = 23#8 then .ok .applicationData
  else .err .decodeError

/-- net/record.rs:62-68 `Record`; `Value` (35-60: borrowed or owned bytes) is the byte string. -/
structure Record where
  contentType : RecordType
  version : Nat
  len : Nat
  header : Bytes
  fraqment : Bytes
  deriving DecidableEq

/-- net/record.rs:71-79 `Record::new`. -/
def Record.new (t : RecordType) (f : Bytes) : Record :=
  { contentType := t, version := 0x0303, header := [t.code, 3#8, 3#8, 0#8, 0#8], len := f.length, fraqment := f }

/-- net/record.rs:81-102 `Record::from_raw`. -/
def Record.fromRaw (buf : Bytes) : Res TlsError (Nat × Record) :=
  if buf.length < 5 then .err .decodeError
  else do
    let b0 ← idx buf 0
    let contentType ← RecordType.new b0
    let b1 ← idx buf 1
    let b2 ← idx buf 2
    let version := b1.toNat * 256 + b2.toNat
    let b3 ← idx buf 3
    let b4 ← idx buf 4
    let len := b3.toNat * 256 + b4.toNat
    if buf.length < 2 + len then .err .decodeError
    else
      let consumed := 5 + len
      let header ← slice buf 0 5
      let fraqment ← slice buf 5 consumed
      .ok (consumed, { contentType := contentType, version := version, header := header, len := len, fraqment := fraqment })

/-- net/record.rs:103-114 `Record::as_bytes`; the casts of the length to `u8` truncate. -/
def Record.asBytes (r : Record) : Bytes :=
  [r.contentType.code, 3#8, 3#8, BitVec.ofNat 8 (r.fraqment.length / 256), BitVec.ofNat 8 r.fraqment.length] ++ r.fraqment

/-- net/record.rs:117-123 `RecordPayloadProtection`. -/
structure RecordPayloadProtection where
  keySchedule : KeySchedule
  cipher : Cipher
  handshakeKeys : WriteKeys
  isClient : Bool
  applicationKeys : Option WriteKeys
  deriving DecidableEq

namespace RecordPayloadProtection

/-- net/record.rs:126-140 `RecordPayloadProtection::new` (`None` is `err ()`). -/
def new (ks : KeySchedule) (cipher : Cipher) (isClient : Bool) : Res Unit RecordPayloadProtection := do
  let hk ← WriteKeys.handshakeKeys ks cipher.getCipherSuite
  .ok { keySchedule := ks, cipher := cipher, handshakeKeys := hk, isClient := isClient, applicationKeys := none }

/-- net/record.rs:142-155 `generate_application_keys`. -/
def generateApplicationKeys (p : RecordPayloadProtection) (ts : TsHash) : Res TlsError RecordPayloadProtection :=
  match WriteKeys.applicationKeysFromMasterSecret p.keySchedule.hkdfMasterSecret ts.finalize p.cipher.getCipherSuite with
  | .ok keys => .ok { p with applicationKeys := some keys }
  | .err _ => .err .internalError
  | .panic => .panic

/-- The keys selected in net/record.rs:163-170 and 202-206: the application keys once they exist. -/
def keys (p : RecordPayloadProtection) : WriteKeys :=
  match p.applicationKeys with
  | none => p.handshakeKeys
  | some k => k

/-- net/record.rs:158-241, the keys selected for one record: The effect of mutating the selected keys through the `&mut` reference. -/
def setKeys (p : RecordPayloadProtection) (k : WriteKeys) : RecordPayloadProtection :=
  match p.applicationKeys with
  | none => { p with handshakeKeys := k }
  | some _ => { p with applicationKeys := some k }

/-- net/record.rs:185-189: nonce and key of the endpoint's own direction; advances the sequence number. -/
def writeNonce (p : RecordPayloadProtection) : Res TlsError (Bytes × Bytes × RecordPayloadProtection) :=
  if p.isClient then do
    let (nonce, k) ← p.keys.client.getPerRecordNonce
    .ok (nonce, k.key, p.setKeys { p.keys with client := k })
  else do
    let (nonce, k) ← p.keys.server.getPerRecordNonce
    .ok (nonce, k.key, p.setKeys { p.keys with server := k })

/-- net/record.rs:211-215: nonce and key of the peer's direction. -/
def readNonce (p : RecordPayloadProtection) : Res TlsError (Bytes × Bytes × RecordPayloadProtection) :=
  if p.isClient then do
    let (nonce, k) ← p.keys.server.getPerRecordNonce
    .ok (nonce, k.key, p.setKeys { p.keys with server := k })
  else do
    let (nonce, k) ← p.keys.client.getPerRecordNonce
    .ok (nonce, k.key, p.setKeys { p.keys with client := k })

/-- net/record.rs:162-198 `encrypt`. -/
def encrypt (p : RecordPayloadProtection) (record : Record) : Res TlsError Bytes × RecordPayloadProtection :=
  let inner := record.fraqment ++ [record.contentType.code]
  let len := inner.length + 16
  let header : Bytes := [RecordType.applicationData.code, 3#8, 3#8, BitVec.ofNat 8 (len / 256), BitVec.ofNat 8 len]
  match p.writeNonce with
  | .err e => (.err e, p)
  | .panic => (.panic, p)
  | .ok (nonce, key, p') =>
    match p.cipher.encrypt key nonce inner header with
    | .err e => (.err e, p')
    | .panic => (.panic, p')
    | .ok (ct, tag) => (.ok (header ++ ct ++ tag), p')

/-- net/record.rs:157-160 `encrypt_handshake`. -/
def encryptHandshake (p : RecordPayloadProtection) (buf : Bytes) : Res TlsError Bytes × RecordPayloadProtection :=
  p.encrypt (Record.new .handshake buf)

/-- net/record.rs:229-237: the backward scan for the content type: `i` counts the bytes still to be inspected. -/
def scanType (plaintext : Bytes) : Nat → Res TlsError (RecordType × Nat)
  | 0 => .ok (.invalid, 0)
  | i + 1 => do
    let b ← idx plaintext i
    if b ≠ 0#8 then do
      let t ← RecordType.new b
      .ok (t, i)
    else scanType plaintext i

/-- net/record.rs:201-240 `decrypt`. `record.fraqment.len() - 16` panics for a fragment of fewer than 16 bytes (overflow checks; in a
release build the slice index is then out of range, also a panic). -/
def decrypt (p : RecordPayloadProtection) (record : Record) : Res TlsError (RecordType × Bytes) × RecordPayloadProtection :=
  if record.fraqment.length < 16 then (.panic, p)
  else
    let ciphertext := record.fraqment.take (record.fraqment.length - 16)
    let ahead := record.fraqment.drop ciphertext.length
    match p.readNonce with
    | .err e => (.err e, p)
    | .panic => (.panic, p)
    | .ok (nonce, key, p') =>
      match p.cipher.decrypt key nonce ciphertext record.header ahead with
      | .err _ => (.err .decryptError, p')
      | .panic => (.panic, p')
      | .ok plaintext =>
        (do
          let (t, n) ← scanType plaintext plaintext.length
          .ok (t, plaintext.take n), p')

end RecordPayloadProtection
end ATLS.Model
