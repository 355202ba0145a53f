import Verif.Model.Cipher
import Verif.Model.Alert
/-
Model of `anothertls/src/net/key_schedule.rs` (without `from_handshake`, which is in `Verif/Model/Ecdhe.lean`).
A Rust function returning `Option<α>` and using `?` is modelled in `Res Unit α`: `err ()` is `None`.
-/
namespace ATLS.Model
open ATLS

/-- net/key_schedule.rs:41-42, 97-112, 184-215: `hkdf.expand(info, len)?` in a function returning `Option`. -/
def Hkdf.expandQ (h : Hkdf) (info : Bytes) (outLen : Nat) : Res Unit Bytes :=
  match h.expand info outLen with
  | .ok (some b) => .ok b
  | .ok none => .err ()
  | .err e => nomatch e
  | .panic => .panic

/-- net/key_schedule.rs:20-29 `get_hkdf_expand_label`. Casts to `u8` truncate. -/
def getHkdfExpandLabel (label context : Bytes) (outLen : Nat) : Bytes :=
  [BitVec.ofNat 8 (outLen / 256), BitVec.ofNat 8 outLen] ++ [BitVec.ofNat 8 (6 + label.length)] ++ ascii "tls13 " ++ label ++
    [BitVec.ofNat 8 context.length] ++ context

/-- net/key_schedule.rs:31-37 `Key`. The array `[u8; 12]` is a byte string (its length is enforced in `Key.fromHkdf`). -/
structure Key where
  trafficSecret : Bytes
  key : Bytes
  iv : Bytes
  sequenceNumber : BitVec 64
  deriving DecidableEq

/-- net/key_schedule.rs:40-50 `Key::from_hkdf`; `try_into().unwrap()` to `[u8; 12]` panics for another length. -/
def Key.fromHkdf (hkdf : Hkdf) (keyLen ivLen : Nat) : Res Unit Key := do
  let key ← hkdf.expandQ (getHkdfExpandLabel (ascii "key") [] keyLen) keyLen
  let iv ← hkdf.expandQ (getHkdfExpandLabel (ascii "iv") [] ivLen) ivLen
  if iv.length ≠ 12 then .panic
  else .ok { trafficSecret := hkdf.prk, key := key, iv := iv, sequenceNumber := 0#64 }

/-- net/key_schedule.rs:51-64 `Key::get_per_record_nonce`: the low byte of `sequence_number >> (8 i)` is XORed into `out[11 - i]` for
`i < 8`; then the `u64` counter is incremented, which panics at its maximum (overflow checks; in a release build it wraps). -/
def Key.getPerRecordNonce {ε : Type} (k : Key) : Res ε (Bytes × Key) :=
  let out := (List.range 8).foldl (fun (o : Bytes) i =>
    o.set (12 - 1 - i) ((o.getD (12 - 1 - i) 0#8) ^^^ (k.sequenceNumber >>> (i * 8)).setWidth 8)) k.iv
  if k.sequenceNumber = BitVec.allOnes 64 then .panic
  else .ok (out, { k with sequenceNumber := k.sequenceNumber + 1#64 })

/-- net/key_schedule.rs:67-70 `WriteKeys`. -/
structure WriteKeys where
  server : Key
  client : Key
  deriving DecidableEq

/-- net/key_schedule.rs:117-125 `KeySchedule`. -/
structure KeySchedule where
  clientHandshakeTrafficSecret : Hkdf
  serverHandshakeTrafficSecret : Hkdf
  hkdfMasterSecret : Hkdf
  deriving DecidableEq

/-- net/key_schedule.rs:73-86 `WriteKeys::handshake_keys`. -/
def WriteKeys.handshakeKeys (ks : KeySchedule) (cs : CipherSuite) : Res Unit WriteKeys := do
  let (keyLen, ivLen) := cs.getKeyAndIvLen
  let server ← Key.fromHkdf ks.serverHandshakeTrafficSecret keyLen ivLen
  let client ← Key.fromHkdf ks.clientHandshakeTrafficSecret keyLen ivLen
  .ok { server := server, client := client }

/-- net/key_schedule.rs:87-113 `WriteKeys::application_keys_from_master_secret`. -/
def WriteKeys.applicationKeysFromMasterSecret (master : Hkdf) (handshakeHash : Bytes) (cs : CipherSuite) : Res Unit WriteKeys := do
  let hash := master.hash
  let hashLen := hash.size
  let c ← master.expandQ (getHkdfExpandLabel (ascii "c ap traffic") handshakeHash hashLen) hashLen
  let (keyLen, ivLen) := cs.getKeyAndIvLen
  let client ← Key.fromHkdf ⟨hash, c⟩ keyLen ivLen
  let s ← master.expandQ (getHkdfExpandLabel (ascii "s ap traffic") handshakeHash hashLen) hashLen
  let server ← Key.fromHkdf ⟨hash, s⟩ keyLen ivLen
  .ok { server := server, client := client }

/-- net/key_schedule.rs:170-222 `KeySchedule::do_key_schedule`. -/
def KeySchedule.doKeySchedule (hash : HashType) (helloHash sharedSecret : Bytes) : Res Unit KeySchedule := do
  let hashLen := hash.size
  let emptySlice := zeros hashLen
  let emptyHash := shaX hash []
  let early := Hkdf.extract hash emptySlice emptySlice
  let derived ← early.expandQ (getHkdfExpandLabel (ascii "derived") emptyHash hashLen) hashLen
  let hs := Hkdf.extract hash derived sharedSecret
  let c ← hs.expandQ (getHkdfExpandLabel (ascii "c hs traffic") helloHash hashLen) hashLen
  let s ← hs.expandQ (getHkdfExpandLabel (ascii "s hs traffic") helloHash hashLen) hashLen
  let derived ← hs.expandQ (getHkdfExpandLabel (ascii "derived") emptyHash hashLen) hashLen
  let master := Hkdf.extract hash derived (zeros hashLen)
  .ok { clientHandshakeTrafficSecret := ⟨hash, c⟩, serverHandshakeTrafficSecret := ⟨hash, s⟩, hkdfMasterSecret := master }

/-- net/handshake/finished.rs:23-42 `get_verify_data_for_finished`. -/
def getVerifyDataForFinished (secret : Hkdf) (ts : TsHash) : Res TlsError Bytes :=
  let finishedHash := ts.finalize
  let hashSize := ts.getType.size
  do
    let finishedKey ← (secret.expandQ (getHkdfExpandLabel (ascii "finished") [] hashSize) hashSize).mapErr fun _ => TlsError.internalError
    .ok (hmac ts.getType finishedKey [finishedHash])

end ATLS.Model
