import Verif.Proof.Client
import Verif.Props.Server
/-
C44, C45, C73, C74: the client's side of the handshake, for every sequence of bytes the server may send and every way TCP delivers it.
-/
namespace ATLS
open ATLS.Model ATLS.Spec FlowProof

/-- What happened on the wire in a handshake of the client: the ClientHello `ch` with the private key `n`, the answer `sh` in the record `shRec`, the
parameters `x` they determine, the contents of the server's protected records, the bodies of its certificate requests, the messages it showed
before its Finished, what the client sent before its Finished (`auth`), the client's protected records and what arrived after the
server's Finished. -/
structure ClientRun where
  n : Int
  ch : Bytes
  x : Params
  sh : Bytes
  shRec : Bytes
  contents : List Bytes
  requests : List Bytes
  shown : Bytes
  auth : List Bytes
  cwire : Bytes
  tail : Bytes

/-- All handshake messages through the server's Finished. -/
def ClientRun.transcript (r : ClientRun) : Bytes := r.x.hellos ++ r.shown ++ r.x.sess.finished .server (r.x.hellos ++ r.shown)

/-- What the client sends under its handshake key. -/
def ClientRun.flight (r : ClientRun) : List Bytes := r.auth ++ [r.x.sess.finished .client (r.transcript ++ r.auth.flatten)]

/-- A server certificate, in terms of the wire: `message` is a Certificate message whose first certificate, `raw`, is one the library can read as
`x` and is valid now by the library's calendar. -/
def ServerCertificateShown (env : ClientEnv) (message raw : Bytes) (x : Model.X509) : Prop :=
  ∃ c n post, c.length < 256 ∧ n.length = 3 ∧
    message = Tls13.handshakeMessage 11#8 (beBytes 1 c.length ++ c ++ (n ++ beBytes 3 raw.length ++ raw ++ post)) ∧
    Model.X509.fromRaw raw = .ok x ∧ (x.validity.isValid env.now : Res TlsError Bool) = .ok true

/-- A completed handshake of the client, in terms of the bytes on the wire. `sock`: the connection before, `s`: the stream handed out. -/
structure ClientCompleted (env : ClientEnv) (reads : List Bytes) (sock : Socket) (s : TlsStream) (r : ClientRun) : Prop where
  offered : Offered env reads r.n r.ch
  /-- The keys are those of the ClientHello sent and the ServerHello received. -/
  answered : ServerAnswered r.x r.n r.ch r.sh
  hello : Tls13.IsRecord 22#8 r.sh r.shRec
  /-- What was received: the record with the ServerHello; then, in records protected under the server's handshake key with consecutive sequence
  numbers from 0 (and change_cipher_spec records between them), `contents`; then records that are no alerts. Every one of these records is a
  piece of the bytes read. -/
  received : ∃ read wire, sock.incoming.flatten = read ++ s.stream.incoming.flatten ∧ TakenFrom read (r.shRec ++ wire ++ r.tail) ∧
    Tls13.Carried (aead r.x.c) (r.x.sess.key .server) (r.x.sess.iv .server) 0 r.contents wire
  after : Tls13.RecordsWithout 21#8 r.tail
  /-- The protected contents are: EncryptedExtensions, certificate requests, a Certificate message, a CertificateVerify message by the key of that
  certificate over RFC 8446's content for the server, and RFC 8446's Finished for the transcript. -/
  messages : ∃ ignored, r.contents.flatten = r.shown ++ r.x.sess.finished .server (r.x.hellos ++ r.shown) ++ ignored
  shown : ∃ ee cm cv raw x, r.shown = opening ee r.requests ++ cm ++ cv ∧ ServerCertificateShown env cm raw x ∧
    PossessionShown .server r.x x (r.x.hellos ++ opening ee r.requests ++ cm) cv
  /-- What was sent: the ClientHello (as much of it as the socket took: all of it if the socket takes everything) and the protected flight. -/
  sent : ∃ k, s.stream.written = sock.written ++ (Tls13.plainRecord 22#8 r.ch).take k ++ r.cwire ∧ s.buffer = [] ∧
    (sock.failures = [] → k = (Tls13.plainRecord 22#8 r.ch).length)
  records : Tls13.Sent (aead r.x.c) (r.x.sess.key .client) (r.x.sess.iv .client) 0 r.flight r.cwire
  answer : ClientAnswer env r.x r.transcript r.requests.getLast? r.auth
  /-- The stream uses the application keys for the transcript through the server's Finished, from sequence number 0. -/
  keys : ∃ p, s.protection = some p ∧ p.cipher = r.x.c ∧ RecProof.wKey p = r.x.appKey r.transcript .client ∧ RecProof.rKey p = r.x.appKey r.transcript .server

namespace ClientProof

theorem presented_shown {env : ClientEnv} {cm : Bytes} {cert : Certificate} (h : ServerPresented env cm cert) :
    ∃ x, cert.x509 = some x ∧ ServerCertificateShown env cm cert.raw x := by
  obtain ⟨body, rfl, h⟩ := h
  have h' := h
  unfold Certificate.fromHello at h
  obtain ⟨c0, h0, h⟩ := Res.bind_eq_ok.1 h
  obtain ⟨l1, h1, h⟩ := Res.bind_eq_ok.1 h
  obtain ⟨_, h2, h3, h4⟩ := ServerProof.slice_split h1
  cases body with
  | nil => cases h0
  | cons b rest =>
    have hb : b = c0 := Res.ok.inj h0
    subst hb
    have hlt := b.isLt
    have hl : (rest.take b.toNat).length = b.toNat := by
      rw [List.length_take]
      rw [List.length_cons] at h3
      omega
    have hsplit : (b :: rest) = beBytes 1 (rest.take b.toNat).length ++ rest.take b.toNat ++ rest.drop b.toNat := by
      rw [hl, List.append_assoc, List.take_append_drop]
      simp [beBytes]
    obtain ⟨n, post, x, g1, g2, g3, g4, g5⟩ := ServerProof.fromHello_inv hsplit (by rw [hl]; exact hlt) h'
    refine ⟨x, g4, rest.take b.toNat, n, post, by rw [hl]; exact hlt, g1, ?_, g3, g5⟩
    rw [← g2, ← hsplit]

end ClientProof

/-- `C45_client_connects` and what was written to the key log. -/
theorem ClientProof.connects_logged (env : ClientEnv) (reads : List Bytes) (sock : Socket) (s : TlsStream) (h : Option ClientHandshake)
    (hcl : ∀ c, env.config.clientCert = some c → c.raw.length < 2 ^ 24) (hn : ∀ n, env.config.serverName = some n → n.length < 2 ^ 24)
    (hin : sock.incoming.flatten.length < 2 ^ 24) (hw : ClientConnection.connect env reads sock = (.ok s, h)) :
    ∃ r h', h = some h' ∧ ClientCompleted env reads sock s r ∧
      h'.logged = hsLog env.config.keylog r.x ++ appLog env.config.keylog r.x r.transcript := by
  obtain ⟨h', n, ch, k, read, recv, rfl, rfl, hst, hb, h1, h2, _, h3, h4, h5, h6⟩ := ClientProof.connect_inv hcl hn hin hw
  unfold ClientProof.RInv at h3
  simp only [hst] at h3
  obtain ⟨x, sh, shRec, contents, wire, tail, g1, g2, _, g3, g4, g5, g6, _, g7, g8, _⟩ := h3
  unfold ClientProof.Inv at g7
  simp only [hst] at g7
  obtain ⟨requests, cert, shown, auth, cwire, ignored, p, ⟨ee, cm, cv, k1, k2, body, k3, k4⟩, j2, j3, j4, j5, j6, j7, j8, j9, _, j10⟩ := g7
  obtain ⟨x5, m1, m2⟩ := ClientProof.presented_shown k2
  refine ⟨⟨n, ch, x, sh, shRec, contents, requests, shown, auth, cwire, tail⟩, h', rfl, ⟨h1, g2, g1, ⟨read, wire, h5, ?_, g4⟩, g6, ⟨ignored, j2⟩,
    ⟨ee, cm, cv, cert.raw, x5, k1, m2, ?_⟩, ⟨k, ?_, hb, h2⟩, j4, j3, ⟨p, j6, j7, j8, j9⟩⟩, j10⟩
  · rw [← g5]; exact h4
  · have := ServerProof.verified_shown m1 (messages := x.hellos ++ opening ee requests ++ cm) ?_ k4 [] (fun _ => rfl)
    · rw [List.append_nil, ← k3] at this
      exact this
    · have e : contents.flatten.length = ((opening ee requests).length + cm.length) + cv.length + (x.sess.finished .server (x.hellos ++ shown)).length + ignored.length := by
        rw [j2]
        conv_lhs => rw [k1]
        simp only [List.length_append, k1]
      simp only [List.length_append]
      omega
  · unfold out at j5
    rw [hb, List.append_nil] at j5
    exact j5

/-- C45, C73, C74: whenever `connect` hands out a stream, the server proved possession of the key of the certificate it showed and of the handshake keys,
and everything on the wire was as RFC 8446 has it. -/
theorem C45_client_connects (env : ClientEnv) (reads : List Bytes) (sock : Socket) (s : TlsStream) (h : Option ClientHandshake)
    (hcl : ∀ c, env.config.clientCert = some c → c.raw.length < 2 ^ 24) (hn : ∀ n, env.config.serverName = some n → n.length < 2 ^ 24)
    (hin : sock.incoming.flatten.length < 2 ^ 24) (hw : ClientConnection.connect env reads sock = (.ok s, h)) :
    ∃ r, ClientCompleted env reads sock s r := by
  obtain ⟨r, h', _, hc, _⟩ := ClientProof.connects_logged env reads sock s h hcl hn hin hw
  exact ⟨r, hc⟩

/-! ### C73: the flight of the client -/

/-- The part of the client's flight before its Finished that RFC 8446 prescribes for a request with the context `context`: a Certificate message
with the context and the configured certificate (or none), then, if there is a certificate, a CertificateVerify message of type
ecdsa_secp256r1_sha256 with a signature of the client's content over the transcript. -/
def RfcAnswer (env : ClientEnv) (x : Params) (messages context : Bytes) (auth : List Bytes) : Prop :=
  match env.config.clientCert with
  | none => auth = [Tls13.handshakeMessage 11#8 (Tls13.certificateMessage context [])]
  | some cert => ∃ (key : PrivateKey) (sig : Signature) (cm der : Bytes), env.config.clientKey = some key ∧
      cm = Tls13.handshakeMessage 11#8 (Tls13.certificateMessage context [(cert.raw, [])]) ∧
      Ecdsa.sign env.nonces key (Sha2.sha256 (Tls13.verifyContent .client (x.sess.hash.H (messages ++ cm)))) = .ok (some sig) ∧ sig.toDer = .ok der ∧
      auth = [cm, Tls13.handshakeMessage 15#8 (Tls13.certificateVerifyMessage 0x0403 der)]

/-- What RFC 8446 says about everything the client sends under its handshake key in the completed handshake `r`: exactly the answer to the (last)
certificate request, if there was one, and its Finished. -/
def RfcFlight (env : ClientEnv) (r : ClientRun) : Prop :=
  Tls13.Sent (aead r.x.c) (r.x.sess.key .client) (r.x.sess.iv .client) 0 (r.auth ++ [r.x.sess.finished .client (r.transcript ++ r.auth.flatten)]) r.cwire ∧
    match r.requests.getLast? with
    | none => r.auth = []
    | some request => ∃ context extensions rest : Bytes, context.length < 256 ∧ request = beBytes 1 context.length ++ context ++ beBytes 2 extensions.length ++ extensions ++ rest ∧
        RfcAnswer env r.x r.transcript context r.auth

/-- C73 for the handshakes that satisfy `P`. -/
def C73_for (P : ClientEnv → ClientRun → Prop) : Prop :=
  ∀ (env : ClientEnv) (reads : List Bytes) (sock : Socket) (s : TlsStream) (h : Option ClientHandshake),
    (∀ c, env.config.clientCert = some c → c.raw.length < 2 ^ 24) → (∀ n, env.config.serverName = some n → n.length < 2 ^ 24) →
    sock.incoming.flatten.length < 2 ^ 24 → ClientConnection.connect env reads sock = (.ok s, h) →
    (∃ r, ClientCompleted env reads sock s r) ∧ ∀ r, ClientCompleted env reads sock s r → P env r → RfcFlight env r

/-- C73, in full. It is false: `C73_false` (Props/RfcServerExample). -/
def C73_statement : Prop := C73_for fun _ _ => True

/-- C73 when the client has a certificate or is not asked for one. -/
theorem C73_client_flight_partial : C73_for fun env r => env.config.clientCert.isSome ∨ r.requests = [] := by
  intro env reads sock s h hcl hn hin hw
  refine ⟨C45_client_connects env reads sock s h hcl hn hin hw, fun r hr hc => ⟨hr.records, ?_⟩⟩
  have := hr.answer
  unfold ClientAnswer at this
  cases hq : r.requests.getLast? with
  | none => rw [hq] at this; exact this
  | some request =>
    rw [hq] at this
    obtain ⟨context, extensions, rest, hl, e, h1⟩ := this
    refine ⟨context, extensions, rest, hl, e, ?_⟩
    rcases hc with hc | hc
    · obtain ⟨cert, hc⟩ := Option.isSome_iff_exists.1 hc
      unfold RfcAnswer
      rw [hc] at h1 ⊢
      exact h1
    · rw [hc] at hq
      cases hq

/-- A client without a certificate that is asked for one never sends RFC 8446's empty Certificate message, nor a Certificate message with any
list of certificates: what it sends does not parse. -/
theorem C73_no_certificate (env : ClientEnv) (reads : List Bytes) (sock : Socket) (s : TlsStream) (h : Option ClientHandshake)
    (hc : env.config.clientCert = none) (hn : ∀ n, env.config.serverName = some n → n.length < 2 ^ 24)
    (hin : sock.incoming.flatten.length < 2 ^ 24) (hw : ClientConnection.connect env reads sock = (.ok s, h)) :
    (∃ r, ClientCompleted env reads sock s r) ∧ ∀ r, ClientCompleted env reads sock s r → r.requests ≠ [] → ∃ body, r.auth = [Tls13.handshakeMessage 11#8 body] ∧
      ∀ context entries, context.length < 256 → body ≠ Tls13.certificateMessage context entries := by
  refine ⟨C45_client_connects env reads sock s h (by rintro c h1; rw [hc] at h1; cases h1) hn hin hw, fun r hr hne => ?_⟩
  have := hr.answer
  unfold ClientAnswer at this
  cases hq : r.requests.getLast? with
  | none => exact absurd (List.getLast?_eq_none_iff.1 hq) hne
  | some request =>
    rw [hq] at this
    obtain ⟨context, extensions, rest, hl, e, h1⟩ := this
    rw [hc] at h1
    refine ⟨_, h1, ?_⟩
    intro context' entries hl' heq
    unfold Tls13.certificateMessage at heq
    obtain ⟨L, hL⟩ : ∃ L, L = (entries.map Tls13.certificateEntry).flatten := ⟨_, rfl⟩
    rw [← hL] at heq
    simp only [List.append_assoc] at heq
    have h1 := List.append_inj heq (by simp [beBytes_length])
    have hlen : context.length = context'.length := by
      have := congrArg beNat h1.1
      rw [beNat_beBytes, beNat_beBytes] at this
      omega
    have h2 := (List.append_inj h1.2 hlen).2
    have h3 : L.length = 3 := by
      have := congrArg List.length h2
      simp only [List.length_cons, List.length_nil, List.length_append, beBytes_length] at this
      omega
    rw [h3] at h2
    have := congrArg (fun l => l[2]?) h2
    simp [beBytes] at this

/-! ### C74: the keys -/

/-- C74: the stream handed out protects what it sends with the client's, and opens what it receives with the server's, application traffic key
of RFC 8446 for the shared secret and the transcript through the server's Finished, both from sequence number 0. -/
theorem C74_client_keys (env : ClientEnv) (reads : List Bytes) (sock : Socket) (s : TlsStream) (h : Option ClientHandshake)
    (hcl : ∀ c, env.config.clientCert = some c → c.raw.length < 2 ^ 24) (hn : ∀ n, env.config.serverName = some n → n.length < 2 ^ 24)
    (hin : sock.incoming.flatten.length < 2 ^ 24) (hw : ClientConnection.connect env reads sock = (.ok s, h)) :
    ∃ r p, ClientCompleted env reads sock s r ∧ s.protection = some p ∧ p.cipher = r.x.c ∧
      (RecProof.wKey p).key = r.x.sess.appKey r.transcript .client ∧ (RecProof.wKey p).iv = r.x.sess.appIv r.transcript .client ∧
      (RecProof.rKey p).key = r.x.sess.appKey r.transcript .server ∧ (RecProof.rKey p).iv = r.x.sess.appIv r.transcript .server ∧
      (RecProof.wKey p).sequenceNumber = 0 ∧ (RecProof.rKey p).sequenceNumber = 0 := by
  obtain ⟨r, hr⟩ := C45_client_connects env reads sock s h hcl hn hin hw
  obtain ⟨p, h1, h2, h3, h4⟩ := hr.keys
  refine ⟨r, p, hr, h1, h2, ?_⟩
  rw [h3, h4]
  exact ⟨rfl, rfl, rfl, rfl, rfl, rfl⟩

/-! ### C44 for the client -/

namespace ClientProof
open ClientHandshake

theorem record_err {env : ClientEnv} {record : Record} {h h' : ClientHandshake} {e : TlsError} (hw : handleRecord env record h = (.ok (), h'))
    (hst : h.state = .finishWithError e) : h'.state = .finishWithError e := by
  unfold handleRecord at hw
  rw [Step.bind_get] at hw
  by_cases hccs : record.contentType = .changeCipherSpec
  · rw [hccs] at hw
    simp only [] at hw
    split_ifs at hw with h1
    · exact absurd hw Step.throw_ok
    obtain ⟨_, rfl⟩ := Step.pure_ok.1 hw
    exact hst
  by_cases hal : record.contentType = .alert
  · rw [hal] at hw
    simp only [] at hw
    slift hw with ⟨c, e2, hw⟩
    exact absurd hw Step.throw_ok
  have hw' : handleEncryptedRecord env record h = (.ok (), h') := by
    cases ht : record.contentType with
    | changeCipherSpec => exact absurd ht hccs
    | alert => exact absurd ht hal
    | invalid => rw [ht, hst] at hw; exact hw
    | handshake => rw [ht, hst] at hw; exact hw
    | applicationData => rw [ht, hst] at hw; exact hw
  obtain ⟨content, h1, e1, hw⟩ := encrypted_step hw'
  obtain ⟨p', rfl⟩ := decrypt_frame e1
  rw [messages_err _ _ _ _ e (by exact hst) hw]
  exact hst

theorem records_err {env : ClientEnv} {rx : Bytes} {e : TlsError} : ∀ (fuel offset : Nat) (d d' : Bytes) (h h' : ClientHandshake),
    recordsLoop env rx fuel offset d h = (.ok d', h') → h.state = .finishWithError e → h'.state = .finishWithError e := by
  intro fuel
  induction fuel with
  | zero => intro offset d d' h h' hw _; exact absurd hw Step.crash_ok
  | succ n ih =>
    intro offset d d' h h' hw hst
    unfold recordsLoop at hw
    by_cases hc : offset < rx.length ∨ d ≠ []
    · rw [if_pos hc] at hw
      slift hw with ⟨buf, e1, hw⟩
      cases hr : Record.fromRaw buf with
      | panic => rw [hr] at hw; exact absurd hw Step.crash_ok
      | err e' =>
        rw [hr] at hw
        obtain ⟨_, rfl⟩ := Step.pure_ok.1 hw
        exact hst
      | ok v =>
        obtain ⟨consumed, record⟩ := v
        rw [hr] at hw
        sbind hw with ⟨u, h1, e2, hw⟩
        have h3 := record_err e2 hst
        by_cases ho : offset + consumed = d.length
        · rw [if_pos ho] at hw
          obtain ⟨_, rfl⟩ := Step.pure_ok.1 hw
          exact h3
        · rw [if_neg ho] at hw
          exact ih _ _ _ _ _ hw h3
    · rw [if_neg hc] at hw
      obtain ⟨_, rfl⟩ := Step.pure_ok.1 hw
      exact hst

theorem read_err {env : ClientEnv} {e : TlsError} : ∀ (fuel : Nat) (d : Bytes) (h h' : ClientHandshake), h.state = .finishWithError e →
    ¬ readLoop env fuel d h = (.ok (), h') := by
  intro fuel
  induction fuel with
  | zero => intro d h h' _ hw; exact absurd hw Step.crash_ok
  | succ n ih =>
    intro d h h' hst hw
    unfold readLoop at hw
    rw [Step.bind_get] at hw
    rw [if_neg (by rw [hst]; exact fun hh => by cases hh)] at hw
    sbind hw with ⟨rx, h1, e1, hw⟩
    obtain ⟨s, e1', rfl⟩ := onStream_ok e1
    sbind hw with ⟨d2, h2, e2, hw⟩
    have h3 := records_err _ _ _ _ _ _ e2 (by exact hst)
    sbind hw with ⟨u', h4, e4, hw⟩
    obtain ⟨s', e4', rfl⟩ := onStream_ok e4
    exact ih _ _ _ (by exact h3) hw

theorem withError_ok {env : ClientEnv} {h h' : ClientHandshake} (hw : doHandshakeWithError env h = (.ok (), h')) : doHandshake env h = (.ok (), h') := by
  unfold doHandshakeWithError at hw
  rcases hd : doHandshake env h with ⟨r, h1⟩
  rw [hd] at hw
  cases r with
  | ok u => exact hw
  | panic => cases hw
  | err e =>
    simp only [] at hw
    split_ifs at hw
    · sbind hw with ⟨u, h2, e2, hw⟩
      exact absurd hw Step.throw_ok
    · exact absurd hw Step.throw_ok

end ClientProof

/-- C44 for the client, an error recorded: from a state in which an error waits for the server's Finished no input makes the handshake succeed. -/
theorem C44_client_recorded (env : ClientEnv) (fuel : Nat) (kept : Bytes) (h h' : ClientHandshake) (e : TlsError) (hst : h.state = .finishWithError e) :
    ClientHandshake.readLoop env fuel kept h ≠ (.ok (), h') := ClientProof.read_err fuel kept h h' hst

/-- C44 for the client, an error returned: if the handling of the data of some read fails, the handshake fails, whatever follows it. -/
theorem C44_client_returned (env : ClientEnv) (fuel : Nat) (kept : Bytes) (h h1 h2 h' : ClientHandshake) (rx : Bytes) (e : TlsError) (hst : h.state ≠ .ready)
    (hr : ClientHandshake.onStream (fun s => s.tcpRead 2048) h = (.ok rx, h1))
    (he : ClientHandshake.recordsLoop env rx (rx.length + (if kept = [] then [] else kept ++ rx).length + 1) 0 (if kept = [] then [] else kept ++ rx) h1 = (.err e, h2)) :
    ClientHandshake.readLoop env fuel kept h ≠ (.ok (), h') := by
  intro hw
  cases fuel with
  | zero => exact absurd hw Step.crash_ok
  | succ n =>
    unfold ClientHandshake.readLoop at hw
    rw [Step.bind_get, if_neg hst, Step.bind_of_ok hr] at hw
    rw [Step.bind_of_err he] at hw
    cases hw

/-- The client hands out a stream only if the loop over the reads succeeds. -/
theorem C44_client_connect (env : ClientEnv) (reads : List Bytes) (sock : Socket) (s : TlsStream) (h : Option ClientHandshake)
    (hw : ClientConnection.connect env reads sock = (.ok s, h)) :
    ∃ h0 h1 h2 fuel, ClientHandshake.new (TlsStream.new sock) reads = .ok h0 ∧ ClientHandshake.sendClientHello env h0 = (.ok (), h1) ∧
      ClientHandshake.readLoop env fuel [] h1 = (.ok (), h2) ∧ s = h2.stream := by
  unfold ClientConnection.connect at hw
  cases h0e : ClientHandshake.new (TlsStream.new sock) reads with
  | err e => rw [h0e] at hw; cases hw
  | panic => rw [h0e] at hw; cases hw
  | ok h0 =>
    rw [h0e] at hw
    simp only [] at hw
    rcases hd : ClientHandshake.doHandshakeWithError env h0 with ⟨r, h2⟩
    rw [hd] at hw
    cases r with
    | err e => cases hw
    | panic => cases hw
    | ok u =>
      simp only [] at hw
      have hs := Res.ok.inj (Prod.mk.inj hw).1
      have hd := ClientProof.withError_ok hd
      unfold ClientHandshake.doHandshake at hd
      sbind hd with ⟨u, h1, e1, hd⟩
      exact ⟨h0, h1, h2, _, rfl, e1, hd, hs.symm⟩

end ATLS
