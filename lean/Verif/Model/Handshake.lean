import Verif.Model.KeySchedule
/-
Model of `anothertls/src/net/handshake/mod.rs` and `anothertls/src/net/handshake/finished.rs:11-21`.
-/
namespace ATLS.Model
open ATLS

/-- net/handshake/mod.rs:15-28 `HandshakeType`. -/
inductive HandshakeType where
  | clientHello
  | serverHello
  | newSessionTicket
  | endOfEarlyData
  | encryptedExtensions
  | certificate
  | certificateRequest
  | certificateVerify
  | finished
  | keyUpdate
  | messageHash
  deriving DecidableEq, Repr

/-- net/handshake/mod.rs:77: `typ as u8` -/
def HandshakeType.code : HandshakeType → Byte
  | .clientHello => 1#8
  | .serverHello => 2#8
  | .newSessionTicket => 4#8
  | .endOfEarlyData => 5#8
  | .encryptedExtensions => 8#8
  | .certificate => 11#8
  | .certificateRequest => 13#8
  | .certificateVerify => 15#8
  | .finished => 20#8
  | .keyUpdate => 24#8
  | .messageHash => 254#8

/-- net/handshake/mod.rs:31-46 `HandshakeType::new`. -/
def HandshakeType.new (byte : Byte) : Option HandshakeType :=
  if byte = 1#8 then some .clientHello
  else if byte = 2#8 then some .serverHello
  else if byte = 4#8 then some .newSessionTicket
  else if byte = 5#8 then some .endOfEarlyData
  else if byte = 8#8 then some .encryptedExtensions
  else if byte = 11#8 then some .certificate
  else if byte = 13#8 then some .certificateRequest
  else if byte = 15#8 then some .certificateVerify
  else if byte = 20#8 then some .finished
  else if byte = 24#8 then some .keyUpdate
  else if byte = 254#8 then some .messageHash
  else none

/-- net/handshake/mod.rs:49-53 `Handshake`. -/
structure Handshake where
  handshakeType : HandshakeType
  fraqment : Bytes
  raw : Bytes
  deriving DecidableEq

/-- net/handshake/mod.rs:56-71 `Handshake::from_raw`. -/
def Handshake.fromRaw (buf : Bytes) : Res TlsError Handshake :=
  if buf.length < 4 then .err .decodeError
  else do
    let b0 ← idx buf 0
    let handshakeType ← Res.okOr .decodeError (HandshakeType.new b0)
    let b1 ← idx buf 1
    let b2 ← idx buf 2
    let b3 ← idx buf 3
    let len := (b1.toNat <<< 16) ||| (b2.toNat <<< 8) ||| b3.toNat
    let fraqment ← slice buf 4 (len + 4)
    let raw ← slice buf 0 (len + 4)
    .ok ⟨handshakeType, fraqment, raw⟩

/-- net/handshake/mod.rs:75-80 `Handshake::to_bytes`. -/
def Handshake.toBytes (typ : HandshakeType) (data : Bytes) : Bytes :=
  [typ.code, BitVec.ofNat 8 (data.length >>> 16), BitVec.ofNat 8 (data.length >>> 8), BitVec.ofNat 8 data.length] ++ data

/-- net/handshake/finished.rs:11-21 `get_finished_handshake`. -/
def getFinishedHandshake (secret : Hkdf) (tshash : TsHash) : Res TlsError Bytes := do
  let verifyData ← getVerifyDataForFinished secret tshash
  .ok (Handshake.toBytes .finished verifyData)

end ATLS.Model
