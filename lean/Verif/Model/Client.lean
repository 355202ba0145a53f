import Verif.Model.Step
import Verif.Model.Stream
import Verif.Model.Handshake
import Verif.Model.Hello
import Verif.Model.KeyExchange
import Verif.Model.Config
import Verif.Model.KeyLog
import Verif.Model.Server
/-
Model of `anothertls/src/net/client/connection.rs`: the client side of the handshake as a state machine over the bytes the socket delivers.
Log output is not modelled. (`optionOf` and `reported` are shared with the server model.)
-/
namespace ATLS.Model
open ATLS

/-- net/client/connection.rs:40-51 `ClientHsState`. -/
inductive ClientHsState where
  | serverHello
  | encryptedExtensions
  | clientCertificateRequest
  | serverCertificate
  | serverCertificateVerify
  | finishWithError (e : TlsError)
  | finished
  | ready
  deriving DecidableEq, Repr

/-- net/client/connection.rs:30-37: What one run of the handshake takes from outside: the configuration, the values the random number generator of the signing call returns
(`Ecdsa::urandom`, at most one such call per handshake) and the clock. -/
structure ClientEnv where
  config : ClientConfig
  nonces : List Int
  now : Nat

/-- net/client/connection.rs:53-65 `ClientHandshake` (the configuration is in `ClientEnv`), and the chunks appended to the key log file. -/
structure ClientHandshake where
  stream : TlsStream
  state : ClientHsState
  certificateRequest : Option Bytes
  keylog : Option KeyLog
  rng : Rng
  tshash : Option TsHash
  privateKey : PrivateKey
  serverCert : Option Certificate
  clientHelloBytes : Option Bytes
  clientHelloRandom : Option Bytes
  logged : List Bytes
  deriving DecidableEq

namespace ClientHandshake

/-- net/client/connection.rs, methods of `ClientHandshake`: A step of the handshake. -/
abbrev M := Step ClientHandshake TlsError

/-- net/client/connection.rs:68-86 `ClientHandshake::new`; `reads`: the reads of `/dev/urandom`. -/
def new (stream : TlsStream) (reads : List Bytes) : Res TlsError ClientHandshake := do
  let (secret, rng) ← (Rng.urandom reads).between 1 32
  .ok {
    stream := stream
    state := .serverHello
    certificateRequest := none
    keylog := none
    rng := rng
    tshash := none
    privateKey := ⟨.curve25519, secret⟩
    serverCert := none
    clientHelloBytes := none
    clientHelloRandom := none
    logged := [] }

/-- net/client/connection.rs, calls on `self.stream`: A call on `self.stream`. -/
def onStream {α : Type} (f : TlsStream → Res TlsError α × TlsStream) : M α := fun h =>
  match f h.stream with
  | (r, s) => (r, { h with stream := s })

/-- net/client/connection.rs:485, 526, 543: `self.stream.write_record(typ, data)` -/
def writeRecord (t : RecordType) (data : Bytes) : M Unit := onStream fun s => s.writeRecord t data

/-- net/client/connection.rs:320-541: `self.tshash.as_mut().unwrap()` -/
def getTshash : M TsHash := fun h => (Res.unwrap h.tshash, h)

/-- net/client/connection.rs:320, 343, 357, 431, 470, 528, 541: `self.tshash.as_mut().unwrap().update(buf)` -/
def updateTshash (buf : Bytes) : M Unit := do
  let t ← getTshash
  .modify fun h => { h with tshash := some (t.update buf) }

/-- net/client/connection.rs:297, 451, 477, 489: `self.stream.protection.as_mut().unwrap()` -/
def getProtection : M RecordPayloadProtection := fun h => (Res.unwrap h.stream.protection, h)

/-- net/client/connection.rs:287: `self.stream.set_protection(p)` or the effect of mutating the protection in place. -/
def setProtection (p : Option RecordPayloadProtection) : M Unit := .modify fun h => { h with stream := h.stream.setProtection p }

/-- net/client/connection.rs:290-552: The assignment `self.state = s`. -/
def setState (s : ClientHsState) : M Unit := .modify fun h => { h with state := s }

/-- net/client/connection.rs:150-206 `send_client_hello`. The hello is written with a single `write` (`tcp_write`). -/
def sendClientHello (env : ClientEnv) : M Unit := do
  let h ← .get
  let (random, rng) ← .lift (h.rng.bytes 32)
  let (sessionId, rng) ← .lift (rng.bytes 32)
  .modify fun h => { h with rng := rng }
  let kse ← .lift (match keyShareOf h.privateKey with
    | .ok kse => .ok kse
    | .err _ => .panic
    | .panic => .panic)
  let body ← .lift (ClientHello.ofClient random sessionId kse.opaq env.config.serverName).asBytes
  let raw := Handshake.toBytes .clientHello body
  .modify fun h => { h with clientHelloRandom := some random, clientHelloBytes := some raw }
  onStream fun s => s.tcpWrite (Record.new .handshake raw).asBytes

/-- net/client/connection.rs:272-285: log the handshake secrets, if a key log is configured and there are keys. -/
def logHandshakeSecrets (env : ClientEnv) (protection : Option RecordPayloadProtection) : M Unit :=
  match env.config.keylog, protection with
  | some filepath, some p => do
    let h ← .get
    let random ← .lift (Res.unwrap h.clientHelloRandom)
    let keylog := KeyLog.new filepath random
    .modify fun h => { h with
      logged := h.logged ++ [keylog.handshakeTrafficSecrets p.handshakeKeys.server.trafficSecret p.handshakeKeys.client.trafficSecret]
      keylog := some keylog }
  | _, _ => pure ()

/-- net/client/connection.rs:246-293 `handle_server_hello`. -/
def handleServerHello (env : ClientEnv) (record : Record) : M Unit := do
  let handshake ← .lift (Handshake.fromRaw record.fraqment)
  if handshake.handshakeType ≠ .serverHello then .throw .unexpectedMessage
  else do
    let sh ← .lift (ServerHello.fromRaw handshake.fraqment)
    let t ← .lift sh.cipherSuite.getTshash
    let h ← .get
    let hello ← .lift (Res.unwrap h.clientHelloBytes)
    let tshash := ((TsHash.new t).update hello).update record.fraqment
    let kse ← .lift (Res.okOr .handshakeFailure sh.getPublicKeyShare)
    let ks ← .lift (KeySchedule.fromHandshake tshash h.privateKey kse)
    let cipher ← .lift sh.cipherSuite.getCipher
    let protection ← .lift (ServerHandshake.optionOf (RecordPayloadProtection.new ks cipher true))
    logHandshakeSecrets env protection
    setProtection protection
    .modify fun h => { h with tshash := some tshash }
    setState .encryptedExtensions

/-- net/client/connection.rs:337-349 `handle_encrypted_extension`. -/
def handleEncryptedExtension (handshake : Handshake) : M Unit :=
  if handshake.handshakeType ≠ .encryptedExtensions then .throw .unexpectedMessage
  else do
    updateTshash handshake.raw
    setState .clientCertificateRequest

/-- net/client/connection.rs:351-391 `handle_server_certificate`: the last certificate is popped, then all the others, so the first one stays. -/
def handleServerCertificate (env : ClientEnv) (handshake : Handshake) : M Unit :=
  if handshake.handshakeType ≠ .certificate then .throw .unexpectedMessage
  else do
    updateTshash handshake.raw
    match Certificate.fromHello env.now handshake.fraqment with
    | .panic => .crash
    | .err e => setState (.finishWithError e)
    | .ok certs => do
      let cert ← .lift (Res.unwrap certs.head?)
      .modify fun h => { h with serverCert := some cert }
      setState .serverCertificateVerify

/-- net/client/connection.rs:392-441 `handle_server_certificate_verify`. -/
def handleServerCertificateVerify (handshake : Handshake) : M Unit := do
  let h ← .get
  match h.serverCert with
  | none => .throw .unexpectedMessage
  | some cert =>
    if handshake.handshakeType ≠ .certificateVerify then .throw .unexpectedMessage
    else do
      let a ← .lift (slice handshake.fraqment 0 2)
      let algo ← .lift (SignatureScheme.new (toU16 a))
      if algo ≠ .ecdsaSecp256r1Sha256 then .crash
      else do
        let der ← .lift (sliceFrom handshake.fraqment 4)
        match Signature.fromDer der with
        | .panic => .crash
        | .err e => setState (.finishWithError e)
        | .ok (signature, size) => do
          let t ← getTshash
          let valid ← .lift (cert.isCertificateValid signature t (ascii "server"))
          if !valid then setState (.finishWithError .badCertificate)
          else do
            updateTshash handshake.raw
            let l ← .lift (slice handshake.fraqment 2 4)
            if toU16 l ≠ size then setState (.finishWithError .badCertificate)
            else setState .finished

/-- net/client/connection.rs:530-550: the CertificateVerify message, if there is a certificate. -/
def sendCertificateVerify (env : ClientEnv) : M Unit :=
  match env.config.clientCert, env.config.clientKey with
  | some _, some key => do
    let t ← getTshash
    let body ← .lift (Certificate.getCertificateVerifyForHandshake env.nonces key t (ascii "client"))
    let raw := Handshake.toBytes .certificateVerify body
    updateTshash raw
    writeRecord .handshake raw
  | some _, none => .throw .handshakeFailure
  | none, _ => pure ()

/-- net/client/connection.rs:500-554 `handle_certificate_request`. -/
def handleCertificateRequest (env : ClientEnv) : M Unit := do
  let h ← .get
  let request ← .lift (Res.unwrap h.certificateRequest)
  let n ← .lift (idx request 0)
  let context ← .lift (if n.toNat > 0 then slice request 1 (n.toNat + 1) else .ok [])
  let response := [n] ++ context
  let consumed := 1 + n.toNat
  let l ← .lift (sliceFrom request consumed)
  let extLen := toU16 l
  let consumed := consumed + 2
  let exts ← .lift (slice request consumed (consumed + extLen))
  match CertificateRequestExtensions.fromRequest exts with
  | .panic => .crash
  | _ => do
    let response := response ++ (match env.config.clientCert with
      | some c => c.getCertificateForHandshake []
      | none => [0x00#8, 0x00#8, 0x00#8, 0x02#8, 0x00#8, 0x00#8])
    let raw := Handshake.toBytes .certificate response
    writeRecord .handshake raw
    updateTshash raw
    sendCertificateVerify env
    setState .serverCertificate

/-- net/client/connection.rs:473-475: answer the request of the server, if there was one. -/
def answerRequest (env : ClientEnv) : M Unit := do
  let h ← .get
  if h.certificateRequest.isSome then handleCertificateRequest env else pure ()

/-- net/client/connection.rs:492-494: log the application secrets, if the handshake secrets were logged. -/
def logApplicationSecrets (p : RecordPayloadProtection) : M Unit := fun h =>
  match h.keylog with
  | some k => (.ok (), { h with logged := h.logged ++ [k.fromProtection p] })
  | none => (.ok (), h)

/-- net/client/connection.rs:442-498 `handle_server_finish`. -/
def handleServerFinish (env : ClientEnv) (handshake : Handshake) : M Unit := do
  let h ← .get
  if handshake.handshakeType ≠ .finished then
    match h.state with
    | .finishWithError _ => pure ()
    | _ => .throw .unexpectedMessage
  else do
    let p ← getProtection
    let t ← getTshash
    let verifyData ← .lift (getVerifyDataForFinished p.keySchedule.serverHandshakeTrafficSecret t)
    match h.state with
    | .finishWithError e => .throw e
    | _ =>
      if handshake.fraqment ≠ verifyData then .throw .decryptError
      else do
        updateTshash handshake.raw
        let applicationTshash ← getTshash
        answerRequest env
        let p ← getProtection
        let t ← getTshash
        let finished ← .lift (getFinishedHandshake p.keySchedule.clientHandshakeTrafficSecret t)
        writeRecord .handshake finished
        onStream TlsStream.flush
        let p ← getProtection
        let p ← .lift (p.generateApplicationKeys applicationTshash)
        setProtection (some p)
        logApplicationSecrets p
        setState .ready

/-- net/client/connection.rs:314-333: dispatch of one handshake message on the state. -/
def handleMessage (env : ClientEnv) (handshake : Handshake) : M Unit := do
  let h ← .get
  match h.state with
  | .encryptedExtensions => handleEncryptedExtension handshake
  | .serverCertificate | .clientCertificateRequest =>
    if handshake.handshakeType = .certificateRequest then do
      .modify fun h => { h with certificateRequest := some handshake.fraqment }
      updateTshash handshake.raw
      setState .serverCertificate
    else handleServerCertificate env handshake
  | .serverCertificateVerify => handleServerCertificateVerify handshake
  | .finished => handleServerFinish env handshake
  | .finishWithError _ => handleServerFinish env handshake
  | _ => pure ()

/-- net/client/connection.rs:308-334: the messages of one record, `rest = fraqment[consumed..]`. Every message has at least four bytes. -/
def messagesLoop (env : ClientEnv) : Nat → Bytes → M Unit
  | 0, rest => if rest = [] then pure () else .crash
  | fuel + 1, rest =>
    if rest = [] then pure ()
    else do
      let handshake ← .lift (Handshake.fromRaw rest)
      handleMessage env handshake
      messagesLoop env fuel (rest.drop handshake.raw.length)

/-- net/client/connection.rs:297: `self.stream.protection.as_mut().unwrap().decrypt(record)` -/
def decryptRecord (record : Record) : M (RecordType × Bytes) := do
  let p ← getProtection
  fun h =>
    match p.decrypt record with
    | (r, p') => (r, { h with stream := h.stream.setProtection (some p') })

/-- net/client/connection.rs:295-336 `handle_handshake_encrypted_record`. -/
def handleEncryptedRecord (env : ClientEnv) (record : Record) : M Unit := do
  let (contentType, content) ← decryptRecord record
  if contentType ≠ .handshake then
    if contentType = .alert then do
      let code ← .lift (idx content 1)
      .throw (.gotAlert code)
    else .throw .unexpectedMessage
  else messagesLoop env content.length content

/-- net/client/connection.rs:208-245 `handle_handshake_record`. -/
def handleRecord (env : ClientEnv) (record : Record) : M Unit := do
  let h ← .get
  match record.contentType with
  | .changeCipherSpec => if h.state = .serverHello then .throw .unexpectedMessage else pure ()
  | .alert => do
    let code ← .lift (idx record.fraqment 1)
    .throw (.gotAlert code)
  | _ =>
    match h.state with
    | .serverHello =>
      if record.contentType ≠ .handshake then .throw .unexpectedMessage else handleServerHello env record
    | .ready => pure ()
    | _ => handleEncryptedRecord env record

/-- net/client/connection.rs:122-142: the inner loop over one read `rx`, with the read position `offset` and the buffer `defragmented`; the
result is the buffer afterwards. `offset` grows in every round, so `rx.length + defragmented.length + 1` rounds are enough. -/
def recordsLoop (env : ClientEnv) (rx : Bytes) : Nat → Nat → Bytes → M Bytes
  | 0, _, _ => .crash
  | fuel + 1, offset, defragmented =>
    if offset < rx.length ∨ defragmented ≠ [] then do
      let recordBuf ← .lift (if defragmented = [] then sliceFrom rx offset else sliceFrom defragmented offset)
      match Record.fromRaw recordBuf with
      | .panic => .crash
      | .err _ => pure (if defragmented = [] then rx.drop offset else defragmented)
      | .ok (consumed, record) => do
        handleRecord env record
        let offset := offset + consumed
        if offset = defragmented.length then pure [] else recordsLoop env rx fuel offset defragmented
    else pure defragmented

/-- net/client/connection.rs:108-146: the loop over the reads. -/
def readLoop (env : ClientEnv) : Nat → Bytes → M Unit
  | 0, _ => .crash
  | fuel + 1, defragmented => do
    let h ← .get
    if h.state = .ready then pure ()
    else do
      let rx ← onStream fun s => s.tcpRead 2048
      let defragmented := if defragmented = [] then [] else defragmented ++ rx
      let defragmented ← recordsLoop env rx (rx.length + defragmented.length + 1) 0 defragmented
      onStream TlsStream.flush
      readLoop env fuel defragmented

/-- net/client/connection.rs:101-148 `do_handshake`. -/
def doHandshake (env : ClientEnv) : M Unit := do
  sendClientHello env
  fun h => readLoop env ((h.stream.stream.incoming.map List.length).sum + h.stream.stream.incoming.length + 2) [] h

/-- net/client/connection.rs:88-99 `do_handshake_with_error`. -/
def doHandshakeWithError (env : ClientEnv) : M Unit := fun h =>
  match doHandshake env h with
  | (.ok _, h) => (.ok (), h)
  | (.panic, h) => (.panic, h)
  | (.err e, h) =>
    (do
      if e.discr < TlsError.notOfficial.discr then onStream fun s => s.writeAlert e else pure ()
      .throw (ServerHandshake.reported e)) h

end ClientHandshake

/-- net/client/connection.rs:30-37 `ClientConnection::connect` over the TCP connection `sock`: the TLS stream, or the error; and the state at the
end (`none` when the key generation panicked). -/
def ClientConnection.connect (env : ClientEnv) (reads : List Bytes) (sock : Socket) : Res TlsError TlsStream × Option ClientHandshake :=
  match ClientHandshake.new (TlsStream.new sock) reads with
  | .ok h =>
    match ClientHandshake.doHandshakeWithError env h with
    | (.ok _, h) => (.ok h.stream, some h)
    | (.err e, h) => (.err e, some h)
    | (.panic, h) => (.panic, some h)
  | .err e => (.err e, none)
  | .panic => (.panic, none)

end ATLS.Model
