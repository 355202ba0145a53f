import Verif.Model.Step
import Verif.Model.Stream
import Verif.Model.Handshake
import Verif.Model.ServerHello
import Verif.Model.Config
import Verif.Model.KeyLog
/-
Model of `anothertls/src/net/server/connection.rs`: the server side of the handshake as a state machine over the bytes the socket delivers.
Log output is not modelled.
-/
namespace ATLS.Model
open ATLS

/-- net/server/connection.rs:53-63 `ServerHsState`. -/
inductive ServerHsState where
  | clientHello
  | clientCertificate
  | clientCertificateVerify
  | clientFinished
  | finishWithError (e : TlsError)
  | ready
  deriving DecidableEq, Repr

/-- net/server/connection.rs:36-60: What one run of the handshake takes from outside: the configuration, the values the random number generator of the signing call returns
(`Ecdsa::urandom`, there is one such call per handshake) and the clock. -/
structure ServerEnv where
  config : ServerConfig
  nonces : List Int
  now : Nat

/-- net/server/connection.rs:65-75 `ServerHandshake` (the configuration is in `ServerEnv`), and the chunks appended to the key log file. -/
structure ServerHandshake where
  stream : TlsStream
  state : ServerHsState
  keylog : Option KeyLog
  clientCert : Option Certificate
  certificateRequestContext : Option Bytes
  rng : Rng
  tshash : Option TsHash
  tshashClienthelloServerfinished : Option TsHash
  logged : List Bytes
  deriving DecidableEq

namespace ServerHandshake

/-- net/server/connection.rs, methods of `ServerHandshake`: A step of the handshake. -/
abbrev M := Step ServerHandshake TlsError

/-- net/server/connection.rs:78-93 `ServerHandshake::new`. -/
def new (env : ServerEnv) (stream : TlsStream) (reads : List Bytes) : ServerHandshake where
  stream := stream
  state := .clientHello
  keylog := none
  clientCert := none
  certificateRequestContext := none
  rng := match env.config.prngType with
    | .simple => .simple 0
    | .urandom => .urandom reads
  tshash := none
  tshashClienthelloServerfinished := none
  logged := []

/-- net/server/connection.rs, calls on `self.stream`: A call on `self.stream`. -/
def onStream {α : Type} (f : TlsStream → Res TlsError α × TlsStream) : M α := fun h =>
  match f h.stream with
  | (r, s) => (r, { h with stream := s })

/-- net/server/connection.rs:183, 191, 226, 242, 254, 269, 286: `self.stream.write_record(typ, data)` -/
def writeRecord (t : RecordType) (data : Bytes) : M Unit := onStream fun s => s.writeRecord t data

/-- net/server/connection.rs:203-217: The option returned by `RecordPayloadProtection::new`. -/
def optionOf {α : Type} : Res Unit α → Res TlsError (Option α)
  | .ok a => .ok (some a)
  | .err _ => .ok none
  | .panic => .panic

/-- net/server/connection.rs:335-468: `self.tshash.as_mut().unwrap()` -/
def getTshash : M TsHash := fun h => (Res.unwrap h.tshash, h)

/-- net/server/connection.rs:337, 431, 445: `self.tshash.as_mut().unwrap().update(buf)` -/
def updateTshash (buf : Bytes) : M Unit := do
  let t ← getTshash
  .modify fun h => { h with tshash := some (t.update buf) }

/-- net/server/connection.rs:300, 451: `self.stream.protection.as_mut().unwrap()` -/
def getProtection : M RecordPayloadProtection := fun h => (Res.unwrap h.stream.protection, h)

/-- net/server/connection.rs:217: `self.stream.set_protection(p)` or the effect of mutating the protection in place. -/
def setProtection (p : Option RecordPayloadProtection) : M Unit := .modify fun h => { h with stream := h.stream.setProtection p }

/-- net/server/connection.rs:289-482: The assignment `self.state = s`. -/
def setState (s : ServerHsState) : M Unit := .modify fun h => { h with state := s }

/-- net/server/connection.rs:205-215: log the handshake secrets, if a key log is configured and there are keys. -/
def logHandshakeSecrets (env : ServerEnv) (protection : Option RecordPayloadProtection) (clientRandom : Bytes) : M Unit :=
  match env.config.keylog, protection with
  | some filepath, some p =>
    let keylog := KeyLog.new filepath clientRandom
    .modify fun h => { h with
      logged := h.logged ++ [keylog.handshakeTrafficSecrets p.handshakeKeys.server.trafficSecret p.handshakeKeys.client.trafficSecret]
      keylog := some keylog }
  | _, _ => pure ()

/-- net/server/connection.rs:229-244: the certificate request, if a client CA is configured; the new transcript. -/
def sendCertificateRequest (env : ServerEnv) (tshash : TsHash) : M TsHash :=
  match env.config.clientCertCa with
  | none => pure tshash
  | some _ => do
    let h ← .get
    let (context, rng) ← .lift (h.rng.bytes 32)
    .modify fun h => { h with rng := rng, certificateRequestContext := some context }
    let request ← .lift (Certificate.getCertificateRequest context)
    let raw := Handshake.toBytes .certificateRequest request
    writeRecord .handshake raw
    pure (tshash.update raw)

/-- net/server/connection.rs:219-296: the protected part of the server's flight, from EncryptedExtensions to Finished. -/
def sendFlight (env : ServerEnv) (tshash : TsHash) : M Unit := do
  let raw := Handshake.toBytes .encryptedExtensions (extensionsAsBytes [])
  writeRecord .handshake raw
  let tshash := tshash.update raw
  let tshash ← sendCertificateRequest env tshash
  let raw := Handshake.toBytes .certificate (env.config.cert.getCertificateForHandshake [0x00#8])
  writeRecord .handshake raw
  let tshash := tshash.update raw
  let body ← .lift (Certificate.getCertificateVerifyForHandshake env.nonces env.config.privkey tshash (ascii "server"))
  let raw := Handshake.toBytes .certificateVerify body
  let tshash := tshash.update raw
  writeRecord .handshake raw
  let p ← getProtection
  let raw ← .lift (getFinishedHandshake p.keySchedule.serverHandshakeTrafficSecret tshash)
  let tshash := tshash.update raw
  writeRecord .handshake raw
  setState (if env.config.clientCertCa.isSome then .clientCertificate else .clientFinished)
  .modify fun h => { h with tshash := some tshash }

/-- net/server/connection.rs:189-192: change_cipher_spec for a client in compatibility mode. -/
def sendChangeCipherSpec (ch : ClientHello) : M Unit :=
  if ch.legacySessionIdEcho.isSome then writeRecord .changeCipherSpec [0x01#8] else pure ()

/-- net/server/connection.rs:161-297 `handle_client_hello`. -/
def handleClientHello (env : ServerEnv) (record : Record) : M Unit := do
  let handshake ← .lift (Handshake.fromRaw record.fraqment)
  if handshake.handshakeType ≠ .clientHello then .throw .unexpectedMessage
  else do
    let ch ← .lift (ClientHello.fromRaw handshake.fraqment)
    let h ← .get
    let (sh, privateKey, rng) ← .lift (ServerHello.fromClientHello ch h.rng env.config.serverName)
    .modify fun h => { h with rng := rng }
    let t ← .lift sh.cipherSuite.getTshash
    let tshash := (TsHash.new t).update record.fraqment
    let body ← .lift sh.asBytes
    let raw := Handshake.toBytes .serverHello body
    let tshash := tshash.update raw
    writeRecord .handshake raw
    sendChangeCipherSpec ch
    let kse ← .lift (Res.okOr .handshakeFailure ch.getPublicKeyShare)
    let ks ← .lift (KeySchedule.fromHandshake tshash privateKey kse)
    let cipher ← .lift sh.cipherSuite.getCipher
    let protection ← .lift (optionOf (RecordPayloadProtection.new ks cipher false))
    logHandshakeSecrets env protection ch.random
    setProtection protection
    sendFlight env tshash

/-- net/server/connection.rs:326-384 `handle_client_certificate`. Simplified: the parsed X.509 part is taken out whether or not there is a verify function,
the code does it only with one; a certificate that passed `has_signed` always has it. -/
def handleClientCertificate (env : ServerEnv) (record : Record) : M Unit := do
  let handshake ← .lift (Handshake.fromRaw record.fraqment)
  match env.config.clientCertCa with
  | none => .throw .unexpectedMessage
  | some ca =>
    if handshake.handshakeType ≠ .certificate then .throw .unexpectedMessage
    else do
      let t ← getTshash
      .modify fun h => { h with tshashClienthelloServerfinished := some t }
      updateTshash record.fraqment
      let n ← .lift (idx handshake.fraqment 0)
      let context ← .lift (slice handshake.fraqment 1 (n.toNat + 1))
      let h ← .get
      let expected ← .lift (Res.unwrap h.certificateRequestContext)
      if context ≠ expected then .throw .handshakeFailure
      else
        match Certificate.fromHello env.now handshake.fraqment with
        | .panic => .crash
        | .err e => setState (.finishWithError e)
        | .ok certs => do
          let cert ← .lift (Res.unwrap certs.getLast?)
          match ca.hasSigned cert with
          | .panic => .crash
          | .err _ => setState (.finishWithError .unknownCa)
          | .ok _ => do
            let x ← .lift (Res.unwrap cert.x509)
            let allowed := match env.config.clientCertCustomVerifyFn with
              | some f => f x
              | none => true
            if !allowed then setState (.finishWithError .accessDenied)
            else do
              .modify fun h => { h with clientCert := some cert }
              setState .clientCertificateVerify

/-- net/server/connection.rs:386-438 `handle_client_certificate_verify`. -/
def handleClientCertificateVerify (record : Record) : M Unit := do
  let handshake ← .lift (Handshake.fromRaw record.fraqment)
  let h ← .get
  match h.clientCert with
  | none => .throw .unexpectedMessage
  | some cert =>
    if handshake.handshakeType ≠ .certificateVerify then .throw .unexpectedMessage
    else do
      let a ← .lift (slice handshake.fraqment 0 2)
      let algo ← .lift (SignatureScheme.new (toU16 a))
      if algo ≠ .ecdsaSecp256r1Sha256 then .crash
      else do
        let der ← .lift (sliceFrom handshake.fraqment 4)
        match Signature.fromDer der with
        | .panic => .crash
        | .err e => setState (.finishWithError e)
        | .ok (signature, size) => do
          let t ← getTshash
          let valid ← .lift (cert.isCertificateValid signature t (ascii "client"))
          if !valid then setState (.finishWithError .badCertificate)
          else do
            let l ← .lift (slice handshake.fraqment 2 4)
            if toU16 l ≠ size then setState (.finishWithError .badCertificate)
            else do
              updateTshash record.fraqment
              setState .clientFinished

/-- net/server/connection.rs:473-475: log the application secrets, if the handshake secrets were logged. -/
def logApplicationSecrets (p : RecordPayloadProtection) : M Unit := fun h =>
  match h.keylog with
  | some k => (.ok (), { h with logged := h.logged ++ [k.fromProtection p] })
  | none => (.ok (), h)

/-- net/server/connection.rs:439-484 `handle_client_finish`. -/
def handleClientFinish (record : Record) : M Unit := do
  let handshake ← .lift (Handshake.fromRaw record.fraqment)
  let h ← .get
  if handshake.handshakeType ≠ .finished then
    match h.state with
    | .finishWithError _ => updateTshash handshake.raw
    | _ => .throw .unexpectedMessage
  else do
    let p ← getProtection
    let t ← getTshash
    let verifyData ← .lift (getVerifyDataForFinished p.keySchedule.clientHandshakeTrafficSecret t)
    if handshake.fraqment ≠ verifyData then .throw .decryptError
    else do
      let ts := match h.tshashClienthelloServerfinished with
        | some t' => t'
        | none => t
      let p ← .lift (p.generateApplicationKeys ts)
      setProtection (some p)
      logApplicationSecrets p
      match h.state with
      | .finishWithError e => .throw e
      | _ => setState .ready

/-- net/server/connection.rs:300: `self.stream.protection.as_mut().unwrap().decrypt(record)` -/
def decryptRecord (record : Record) : M (RecordType × Bytes) := do
  let p ← getProtection
  fun h =>
    match p.decrypt record with
    | (r, p') => (r, { h with stream := h.stream.setProtection (some p') })

/-- net/server/connection.rs:299-324 `handle_handshake_encrypted_record`. -/
def handleEncryptedRecord (env : ServerEnv) (record : Record) : M Unit := do
  let (contentType, content) ← decryptRecord record
  let record := Record.new contentType content
  let h ← .get
  if record.contentType ≠ .handshake ∨ (env.config.clientCertCa.isSome ∧ h.certificateRequestContext.isNone) then
    if record.contentType = .alert then do
      let code ← .lift (idx record.fraqment 1)
      .throw (.gotAlert code)
    else .throw .unexpectedMessage
  else
    match h.state with
    | .clientCertificate => handleClientCertificate env record
    | .clientCertificateVerify => handleClientCertificateVerify record
    | .clientFinished => handleClientFinish record
    | .finishWithError _ => handleClientFinish record
    | _ => pure ()

/-- net/server/connection.rs:125-160 `handle_handshake_record`. -/
def handleRecord (env : ServerEnv) (record : Record) : M Unit := do
  let h ← .get
  match record.contentType with
  | .changeCipherSpec => if h.state = .clientHello then .throw .unexpectedMessage else pure ()
  | .alert => do
    let code ← .lift (idx record.fraqment 1)
    .throw (.gotAlert code)
  | _ =>
    match h.state with
    | .clientHello =>
      if record.contentType ≠ .handshake then .throw .unexpectedMessage else handleClientHello env record
    | .ready => pure ()
    | _ => handleEncryptedRecord env record

/-- net/server/connection.rs:113-118: the records of one read; `rest = rx_buf[consumed_total..n]`. Every record has at least five bytes, so
`rest.length` rounds are enough. -/
def recordsLoop (env : ServerEnv) : Nat → Bytes → M Unit
  | 0, rest => if rest = [] then pure () else .crash
  | fuel + 1, rest =>
    if rest = [] then pure ()
    else do
      let (consumed, record) ← .lift (Record.fromRaw rest)
      handleRecord env record
      recordsLoop env fuel (rest.drop consumed)

/-- net/server/connection.rs:111-121, the loop over the reads; every read takes bytes from the socket or fails, see `doHandshake`. -/
def readLoop (env : ServerEnv) : Nat → M Unit
  | 0 => .crash
  | fuel + 1 => do
    let h ← .get
    if h.state = .ready then pure ()
    else do
      let rx ← onStream fun s => s.tcpRead 4096
      recordsLoop env rx.length rx
      onStream TlsStream.flush
      readLoop env fuel

/-- net/server/connection.rs:108-123 `do_handshake`. -/
def doHandshake (env : ServerEnv) : M Unit := fun h =>
  readLoop env ((h.stream.stream.incoming.map List.length).sum + h.stream.stream.incoming.length + 2) h

/-- net/server/connection.rs:100-102: the error reported for an alert of the peer. -/
def reported : TlsError → TlsError
  | .gotAlert code => TlsError.new code
  | e => e

/-- net/server/connection.rs:94-106 `do_handshake_with_error`. -/
def doHandshakeWithError (env : ServerEnv) : M Unit := fun h =>
  match doHandshake env h with
  | (.ok _, h) => (.ok (), h)
  | (.panic, h) => (.panic, h)
  | (.err e, h) =>
    (do
      if e.discr < TlsError.notOfficial.discr then onStream fun s => s.writeAlert e else pure ()
      .throw (reported e)) h

end ServerHandshake

/-- net/server/connection.rs:36-51 `ServerConnection::accept`, once the TCP connection `sock` is accepted: the TLS stream, or the error. `reads`:
the reads of `/dev/urandom` made by the handshake's generator. The second component is the state at the end. -/
def ServerConnection.accept (env : ServerEnv) (reads : List Bytes) (sock : Socket) : Res TlsError TlsStream × ServerHandshake :=
  match ServerHandshake.doHandshakeWithError env (ServerHandshake.new env (TlsStream.new sock) reads) with
  | (.ok _, h) => (.ok h.stream, h)
  | (.err e, h) => (.err e, h)
  | (.panic, h) => (.panic, h)

end ATLS.Model
