import Verif.Proof.Server
import Verif.Props.Handshake
/-
C42, C43, C44, C49, C71, C72: the server's side of the handshake, for every sequence of bytes the client may send and every way TCP delivers it.
-/
namespace ATLS
open ATLS.Model ATLS.Spec FlowProof

/-- A completed handshake of the server, in terms of the bytes on the wire. `sock`: the connection before, `s`: the stream handed out, `r`: the first
exchange, `auth`: the contents of the client's records before its Finished, `fin`: the content with the Finished, `tail`: what else arrived in
the same read. -/
structure Accepted (env : ServerEnv) (reads : List Bytes) (sock : Socket) (s : TlsStream) (r : Exchange) (context : Option Bytes)
    (auth : List Bytes) (fin tail : Bytes) : Prop where
  /-- What was received: the record with the ClientHello; then, in records protected under the client's handshake key with consecutive sequence
  numbers from 0 (and change_cipher_spec records between them), `auth` and `fin`; then records that are no alerts. -/
  received : ∃ recv, sock.incoming.flatten = recv ++ tail ++ s.stream.incoming.flatten ∧ r.Received (auth ++ [fin]) recv
  hello : Tls13.IsRecord 22#8 r.ch r.chRec
  after : Tls13.RecordsWithout 21#8 tail
  size : r.transcript.length < 2 ^ 27 ∧ auth.flatten.length < 2 ^ 18 ∧ r.ch.length ≤ 4096
  /-- The keys are those of the ClientHello received and the ServerHello sent. -/
  answered : HelloAnswered env reads r.x r.ch r.sh r.ccs
  /-- The client authenticated itself if that was asked for. -/
  authenticated : ClientAuth env r.x context r.transcript auth
  /-- The Finished message is RFC 8446's for the whole transcript. -/
  finished : ∃ rest, fin = r.x.sess.finished .client (r.transcript ++ auth.flatten) ++ rest
  /-- What was sent: ServerHello, change_cipher_spec, and the protected flight. -/
  sent : s.stream.written = sock.written ++ (Tls13.plainRecord 22#8 r.sh ++ r.ccs ++ r.swire) ∧ s.buffer = []
  records : Tls13.Sent (aead r.x.c) (r.x.sess.key .server) (r.x.sess.iv .server) 0 r.flight r.swire
  flight : ServerFlight env r.x context r.flight
  /-- The stream uses the application keys for the transcript through the server's Finished, from sequence number 0. -/
  keys : ∃ p, s.protection = some p ∧ p.cipher = r.x.c ∧ RecProof.wKey p = r.x.appKey r.transcript .server ∧ RecProof.rKey p = r.x.appKey r.transcript .client

/-- `C42_server_accepts` and what was written to the key log. -/
theorem ServerProof.accepts_logged (env : ServerEnv) (reads : List Bytes) (sock : Socket) (s : TlsStream) (h : ServerHandshake)
    (hc : env.config.cert.raw.length < 2 ^ 24) (ha : ServerConnection.accept env reads sock = (.ok s, h)) :
    ∃ r context auth fin tail, Accepted env reads sock s r context auth fin tail ∧
      h.logged = hsLog env.config.keylog r.x ++ appLog env.config.keylog r.x r.transcript := by
  obtain ⟨rfl, hst, hb, recv, hi, hrecv⟩ := ServerProof.accept_inv hc ha
  unfold ServerProof.Inv at hi
  simp only [hst] at hi
  obtain ⟨r, p, auth, fin, rest, recv', tail, h1, h2, h3, h4, h5, h6, h7, h8, h9, h10, h11, h12, h13, h14⟩ := hi
  have hT : r.transcript.length < 2 ^ 27 := by
    have := h1.hellos
    have := h1.len
    unfold Exchange.transcript
    rw [List.length_append]
    omega
  refine ⟨r, h.certificateRequestContext, auth, fin, tail, ⟨⟨recv', by rw [hrecv, h2], h3⟩, h1.isRec, h4, ⟨hT, h13, h1.short⟩, h1.answered, h5, ⟨rest, h6⟩, ⟨?_, hb⟩, h1.sent,
    h1.flight, ⟨p, h7, h10, h8, h9⟩⟩, h14⟩
  have := h1.out
  unfold out at this
  rw [hb, List.append_nil] at this
  exact this

/-- C42, C71, C72: whenever `accept` hands out a stream, the handshake was RFC 8446's. -/
theorem C42_server_accepts (env : ServerEnv) (reads : List Bytes) (sock : Socket) (s : TlsStream) (h : ServerHandshake)
    (hc : env.config.cert.raw.length < 2 ^ 24) (ha : ServerConnection.accept env reads sock = (.ok s, h)) :
    ∃ r context auth fin tail, Accepted env reads sock s r context auth fin tail := by
  obtain ⟨r, context, auth, fin, tail, hA, _⟩ := ServerProof.accepts_logged env reads sock s h hc ha
  exact ⟨r, context, auth, fin, tail, hA⟩

/-- C71: everything the server wrote during a completed handshake. The ServerHello is RFC 8446's message for the chosen suite, the session id of the
ClientHello and X25519 key shares, the last of which belongs to the private key in use; then a change_cipher_spec record if there is a session
id; then EncryptedExtensions, CertificateRequest (iff a client CA is configured), Certificate, CertificateVerify and Finished, each in a
protected record, with sequence numbers from 0. -/
theorem C71_server_flight (env : ServerEnv) (reads : List Bytes) (sock : Socket) (s : TlsStream) (h : ServerHandshake)
    (hc : env.config.cert.raw.length < 2 ^ 24) (ha : ServerConnection.accept env reads sock = (.ok s, h)) :
    ∃ r context auth fin tail, Accepted env reads sock s r context auth fin tail ∧
      s.stream.written = sock.written ++ (Tls13.plainRecord 22#8 r.sh ++ r.ccs ++ r.swire) ∧
      Tls13.Sent (aead r.x.c) (r.x.sess.key .server) (r.x.sess.iv .server) 0 r.flight r.swire ∧ ServerFlight env r.x context r.flight ∧
      ∃ (random session : Bytes) (shares : List Bytes) (pk : PrivateKey) (share : KeyShareEntry),
        r.sh = Tls13.handshakeMessage 2#8 (Tls13.ServerHelloMsg.mk random session r.x.cs.asU16
          (shares.map (fun s => .keyShare (29, s)) ++ [.supportedVersions 0x0304])).bytes ∧
        shares.getLast? = some (publicShare pk.secret) ∧ sharedSecret pk share.opaq = .ok r.x.ecdhe ∧
        (r.ccs = [] ∨ r.ccs = [20#8, 3#8, 3#8, 0#8, 1#8, 1#8]) := by
  obtain ⟨r, context, auth, fin, tail, hA⟩ := C42_server_accepts env reads sock s h hc ha
  refine ⟨r, context, auth, fin, tail, hA, hA.sent.1, hA.records, hA.flight, ?_⟩
  obtain ⟨rng, hs, hello, answer, pk, share, body, g1, g2, g3, g4, g5, g6, g7, _, g8, g9, g10, _⟩ := hA.answered
  obtain ⟨_, _, k3, _⟩ := handshake_inv g1
  obtain ⟨wire, shares, l1, _, l3, _, _, l6, _⟩ := C36_reachable hs.fraqment hello _ _ answer pk rng (by have := hA.size.2.2; omega) g3 g4
  have hb : body = wire := by rw [l1] at g5; exact (Res.ok.inj g5).symm
  subst hb
  refine ⟨answer.random, hello.legacySessionIdEcho.getD [], shares.map List.reverse, pk, share, ?_, ?_, g8, ?_⟩
  · rw [g6, l3, g10, List.map_map]
    rfl
  · rw [List.getLast?_map, l6]
    simp
  · rw [g9]
    split_ifs
    · right; rfl
    · left; rfl

/-- C72: the stream handed out protects what it sends with the server's, and opens what it receives with the client's, application traffic key
of RFC 8446 for the shared secret and the transcript through the server's Finished, both from sequence number 0. -/
theorem C72_server_keys (env : ServerEnv) (reads : List Bytes) (sock : Socket) (s : TlsStream) (h : ServerHandshake)
    (hc : env.config.cert.raw.length < 2 ^ 24) (ha : ServerConnection.accept env reads sock = (.ok s, h)) :
    ∃ r context auth fin tail p, Accepted env reads sock s r context auth fin tail ∧ s.protection = some p ∧ p.cipher = r.x.c ∧
      (RecProof.wKey p).key = r.x.sess.appKey (r.x.hellos ++ r.flight.flatten) .server ∧ (RecProof.wKey p).iv = r.x.sess.appIv (r.x.hellos ++ r.flight.flatten) .server ∧
      (RecProof.rKey p).key = r.x.sess.appKey (r.x.hellos ++ r.flight.flatten) .client ∧ (RecProof.rKey p).iv = r.x.sess.appIv (r.x.hellos ++ r.flight.flatten) .client ∧
      (RecProof.wKey p).sequenceNumber = 0 ∧ (RecProof.rKey p).sequenceNumber = 0 := by
  obtain ⟨r, context, auth, fin, tail, hA⟩ := C42_server_accepts env reads sock s h hc ha
  obtain ⟨p, h1, h2, h3, h4⟩ := hA.keys
  refine ⟨r, context, auth, fin, tail, p, hA, h1, h2, ?_⟩
  rw [h3, h4]
  exact ⟨rfl, rfl, rfl, rfl, rfl, rfl⟩

/-! ### C43 -/

namespace ServerProof

theorem publicKey_shape {x : Model.X509} {pk : PublicKey} (hk : x.getPublicKey = .ok pk) : ∃ px py : Nat, pk = ⟨⟨px, py⟩, Curve.secp256r1⟩ := by
  unfold Model.X509.getPublicKey at hk
  split_ifs at hk
  obtain ⟨params, _, hk⟩ := Res.bind_eq_ok.1 hk
  split_ifs at hk
  obtain ⟨b, _, hk⟩ := Res.bind_eq_ok.1 hk
  split_ifs at hk
  obtain ⟨px, _, hk⟩ := Res.bind_eq_ok.1 hk
  obtain ⟨py, _, hk⟩ := Res.bind_eq_ok.1 hk
  cases hk
  exact ⟨_, _, rfl⟩

end ServerProof

/-- The key of the CA signed (ECDSA with SHA-256) the bytes of the certificate that the library takes for the tbsCertificate. -/
def SignedBy (ca cert : Certificate) (x : Model.X509) : Prop :=
  ∃ (caX : Model.X509) (px py : Nat) (sig : Signature) (tbs : Bytes), ca.x509 = some caX ∧ caX.getPublicKey = .ok ⟨⟨px, py⟩, Curve.secp256r1⟩ ∧
    x.signature = some sig ∧ tbs = (cert.raw.drop 4).take x.tbsCertificateSize ∧ 4 + x.tbsCertificateSize ≤ cert.raw.length ∧
    Spec.Ecdsa.Accepts ((px : Int), (py : Int)) sig.r sig.s (Spec.Ecdsa.hashInt (Spec.Sha2.sha256 tbs))

theorem ServerProof.hasSigned_sound {ca cert : Certificate} {x : Model.X509} (hx : cert.x509 = some x) (hl : cert.raw.length < 2 ^ 53)
    (h : ca.hasSigned cert = .ok ()) : SignedBy ca cert x := by
  unfold Certificate.hasSigned at h
  rw [hx] at h
  cases hca : ca.x509 with
  | none => rw [hca] at h; cases h
  | some caX =>
    rw [hca] at h
    simp only [] at h
    cases hk : caX.getPublicKey with
    | panic => rw [hk] at h; cases h
    | err e => rw [hk] at h; cases h
    | ok pk =>
      rw [hk] at h
      obtain ⟨px, py, rfl⟩ := publicKey_shape hk
      simp only [Res.ok_bind] at h
      cases hs : x.signature with
      | none => rw [hs] at h; cases h
      | some sig =>
        rw [hs] at h
        simp only [] at h
        obtain ⟨tbs, h1, h⟩ := Res.bind_eq_ok.1 h
        obtain ⟨ok, h2, h⟩ := Res.bind_eq_ok.1 h
        split_ifs at h with hok
        subst hok
        unfold slice at h1
        split_ifs at h1 with hb
        have h1 := (Res.ok.inj h1).symm
        rw [Nat.add_sub_cancel_left] at h1
        have hl' : tbs.length < 2 ^ 53 := by
          rw [h1]; simp only [List.length_take, List.length_drop]; omega
        rw [(C06_sha256_fips _ hl').1] at h2
        obtain ⟨s, r⟩ := sig
        obtain ⟨ans, g1, g2⟩ := C30_fips px py s r (by omega) (by omega) (Spec.Sha2.sha256 tbs) (by
          rw [← (C06_sha256_fips _ hl').1, (C06_sha256_fips _ hl').2])
        refine ⟨caX, px, py, ⟨s, r⟩, tbs, hca, hk, hs, h1, hb.2, ?_⟩
        rw [g1] at h2
        cases h2
        exact g2.1 rfl

namespace ServerProof

theorem slice_split {ε : Type} {l s : Bytes} {a b : Nat} (h : (slice l a b : Res ε Bytes) = .ok s) :
    l = l.take a ++ (s ++ l.drop b) ∧ a ≤ b ∧ b ≤ l.length ∧ s.length = b - a := by
  unfold slice at h
  split_ifs at h with hb
  have h := (Res.ok.inj h).symm
  subst h
  refine ⟨?_, hb.1, hb.2, by rw [List.length_take, List.length_drop]; omega⟩
  rw [show l.drop b = (l.drop a).drop (b - a) by rw [List.drop_drop]; congr 1; omega, List.take_append_drop, List.take_append_drop]

/-- What a Certificate message the library accepts looks like. -/
theorem fromHello_inv {now : Nat} {buf context rest : Bytes} {cert : Certificate} (hb : buf = beBytes 1 context.length ++ context ++ rest) (hc : context.length < 256)
    (h : Certificate.fromHello now buf = .ok [cert]) :
    ∃ (n post : Bytes) (x : Model.X509), n.length = 3 ∧ rest = n ++ beBytes 3 cert.raw.length ++ cert.raw ++ post ∧
      Model.X509.fromRaw cert.raw = .ok x ∧ cert.x509 = some x ∧ (x.validity.isValid now : Res TlsError Bool) = .ok true := by
  unfold Certificate.fromHello at h
  obtain ⟨c0, h0, h⟩ := Res.bind_eq_ok.1 h
  obtain ⟨l1, h1, h⟩ := Res.bind_eq_ok.1 h
  simp only [] at h
  split_ifs at h
  obtain ⟨l2, h2, h⟩ := Res.bind_eq_ok.1 h
  obtain ⟨raw, h3, h⟩ := Res.bind_eq_ok.1 h
  obtain ⟨cert', h4, h⟩ := Res.bind_eq_ok.1 h
  obtain ⟨_, _, h⟩ := Res.bind_eq_ok.1 h
  obtain ⟨x, hx, h⟩ := Res.bind_eq_ok.1 h
  obtain ⟨v, hv, h⟩ := Res.bind_eq_ok.1 h
  split_ifs at h with hvv
  have hcc := (List.cons.inj (Res.ok.inj h)).1
  subst hcc
  have hvt : v = true := by simpa using hvv
  subst hvt
  unfold Certificate.fromRawX509 at h4
  obtain ⟨x', hx', h4⟩ := Res.bind_eq_ok.1 h4
  have h4 := (Res.ok.inj h4).symm
  subst h4
  have hxx : x' = x := Res.ok.inj hx
  subst hxx
  have hx'' : Model.X509.fromRaw raw = .ok x' := by
    cases he : Model.X509.fromRaw raw with
    | ok y => rw [he] at hx'; cases hx'; rfl
    | err e => rw [he] at hx'; cases hx'
    | panic => rw [he] at hx'; cases hx'
  have hc0 : c0 = BitVec.ofNat 8 context.length := by
    rw [hb] at h0
    simp only [idx, beBytes, List.cons_append, List.nil_append] at h0
    simpa using (Res.ok.inj h0).symm
  have hn : c0.toNat = context.length := by rw [hc0, BitVec.toNat_ofNat]; omega
  rw [hn] at h1 h2 h3
  obtain ⟨k, hk⟩ : ∃ k, k = 1 + context.length := ⟨_, rfl⟩
  rw [← hk] at h1 h2 h3
  obtain ⟨a1, a2, a3, a4⟩ := slice_split h1
  obtain ⟨b1, b2, b3, b4⟩ := slice_split h2
  obtain ⟨d1, d2, d3, d4⟩ := slice_split h3
  have hdrop : buf.drop k = rest := by
    rw [hb, List.drop_left' (by simp [beBytes_length, hk])]
  have e1 : rest = l1 ++ buf.drop (k + 3) := by
    rw [← hdrop]
    conv_lhs => rw [a1]
    rw [List.drop_left' (by rw [List.length_take]; omega)]
  have e2 : buf.drop (k + 3) = l2 ++ buf.drop (k + 3 + 3) := by
    conv_lhs => rw [b1]
    rw [List.drop_left' (by rw [List.length_take]; omega)]
  have e3 : buf.drop (k + 3 + 3) = raw ++ buf.drop (k + 3 + 3 + (toU128BeFill l2).toNat) := by
    conv_lhs => rw [d1]
    rw [List.drop_left' (by rw [List.length_take]; omega)]
  refine ⟨l1, buf.drop (k + 3 + 3 + (toU128BeFill l2).toNat), x', by omega, ?_, hx'', rfl, hv⟩
  · have hl2 : l2 = beBytes 3 raw.length := by
      have e := DerProof.toU128BeFill_eq l2 (by omega)
      rw [d4, Nat.add_sub_cancel_left, e]
      have := beBytes_beNat l2
      rw [show l2.length = 3 by omega] at this
      exact this.symm
    rw [e1, e2, e3, ← hl2]
    simp only [List.append_assoc]

end ServerProof

/-- A client certificate, in terms of the wire: `message` starts with a Certificate message whose context is the one of the request and whose first
certificate, `raw`, is one the library can read as `x`, is valid now by the library's calendar, and is signed by the CA. -/
def CertificateShown (env : ServerEnv) (ca : Certificate) (context : Option Bytes) (message raw : Bytes) (x : Model.X509) : Prop :=
  ∃ c n post more, context = some c ∧ n.length = 3 ∧
    message = Tls13.handshakeMessage 11#8 (beBytes 1 c.length ++ c ++ (n ++ beBytes 3 raw.length ++ raw ++ post)) ++ more ∧
    Model.X509.fromRaw raw = .ok x ∧ (x.validity.isValid env.now : Res TlsError Bool) = .ok true ∧
    SignedBy ca ⟨raw, some x⟩ x ∧ ∀ f, env.config.clientCertCustomVerifyFn = some f → f x = true

/-- A proof of possession, in terms of the wire: `message` starts with a CertificateVerify message of type ecdsa_secp256r1_sha256 with a
signature by the certificate's key over RFC 8446's content for the role and the transcript `messages`. For the server's proof it is this message. -/
def PossessionShown (role : Tls13.Role) (x : Params) (cert : Model.X509) (messages message : Bytes) : Prop :=
  ∃ (der more more' : Bytes) (px py : Nat) (sig : Signature) (size : Nat),
    message = Tls13.handshakeMessage 15#8 ([4#8, 3#8] ++ beBytes 2 size ++ der ++ more) ++ more' ∧ der.length = size ∧
    Signature.fromDer (der ++ more) = .ok (sig, size) ∧
    cert.getPublicKey = .ok ⟨⟨px, py⟩, Curve.secp256r1⟩ ∧
    Spec.Ecdsa.Accepts ((px : Int), (py : Int)) sig.r sig.s (Spec.Ecdsa.hashInt (Spec.Sha2.sha256 (Tls13.verifyContent role (x.sess.hash.H messages)))) ∧
    (role = .server → more' = [])

namespace ServerProof

theorem fromDer_size {buf : Bytes} {sig : Signature} {size : Nat} (h : Signature.fromDer buf = .ok (sig, size)) : size ≤ buf.length := by
  unfold Signature.fromDer at h
  obtain ⟨⟨_, _, c1⟩, _, h⟩ := Res.bind_eq_ok.1 h
  simp only [] at h
  split_ifs at h
  obtain ⟨⟨s2, _, c2⟩, _, h⟩ := Res.bind_eq_ok.1 h
  simp only [] at h
  obtain ⟨r, _, h⟩ := Res.bind_eq_ok.1 h
  obtain ⟨⟨s3, _, c3⟩, _, h⟩ := Res.bind_eq_ok.1 h
  simp only [] at h
  obtain ⟨s, hs, h⟩ := Res.bind_eq_ok.1 h
  have := (slice_split hs).2.2.1
  have e := (Prod.mk.inj (Res.ok.inj h)).2
  omega

theorem presented_shown {env : ServerEnv} {context : Option Bytes} {m : Bytes} {cert : Certificate} (hc : ∀ c, context = some c → c.length = 32)
    (h : Presented env context m cert) : ∃ ca x, env.config.clientCertCa = some ca ∧ cert.x509 = some x ∧ CertificateShown env ca context m cert.raw x := by
  obtain ⟨ca, hs, c, rest, x, h1, h2, h3, h4, h5, h6, h7, h8, h9⟩ := h
  obtain ⟨k1, k2, _, k4⟩ := handshake_inv h2
  obtain ⟨n, post, x', g1, g2, g3, g4, g5⟩ := fromHello_inv h5 (by rw [hc c h4]; omega) h6
  have hxx : x' = x := by rw [h8] at g4; exact (Option.some.inj g4).symm
  subst hxx
  refine ⟨ca, x', h1, h8, c, n, post, m.drop hs.raw.length, h4, g1, ?_, g3, g5, ?_, h9⟩
  · have e : Tls13.handshakeMessage 11#8 (beBytes 1 c.length ++ c ++ (n ++ beBytes 3 cert.raw.length ++ cert.raw ++ post)) = hs.raw := by
      rw [k1, h3, h5, g2]; rfl
    rw [e]
    exact k2
  · have hl : cert.raw.length < 2 ^ 53 := by
      have : hs.fraqment.length < 2 ^ 24 := k4
      rw [h5, g2] at this
      simp only [List.length_append] at this
      omega
    obtain ⟨raw, x5⟩ := cert
    simp only at h8 hl ⊢
    subst h8
    exact hasSigned_sound rfl hl h7

theorem verified_shown {role : Tls13.Role} {x : Params} {messages body : Bytes} {cert : Certificate} {x5 : Model.X509} (hx : cert.x509 = some x5)
    (hm : messages.length < 2 ^ 53) (h3 : Verified cert role (ts x.t messages) body) (more' : Bytes)
    (hr : role = .server → more' = []) :
    PossessionShown role x x5 messages (Tls13.handshakeMessage 15#8 body ++ more') := by
  obtain ⟨px, py, sig, size, g1, g2, g3⟩ := C69_sound cert x5 role _ _ hx h3
  obtain ⟨sig', size', e1, e2, e3, _⟩ := h3
  have hss : size' = size := by rw [e2] at g2; exact (Prod.mk.inj (Res.ok.inj g2)).2
  subst hss
  obtain ⟨a1, a2, a3, a4⟩ := slice_split e1
  obtain ⟨b1, b2, b3, b4⟩ := slice_split e3
  have hz := fromDer_size g2
  refine ⟨(body.drop 4).take size', (body.drop 4).drop size', more', px, py, sig, size', ?_, by rw [List.length_take]; omega, ?_, g1, ?_, hr⟩
  · have e : body.drop 2 = beBytes 2 size' ++ body.drop 4 := by
      conv_lhs => rw [b1]
      rw [List.drop_left' (by rw [List.length_take]; omega)]
    have e' : body = [4#8, 3#8] ++ beBytes 2 size' ++ (body.drop 4).take size' ++ (body.drop 4).drop size' := by
      rw [List.append_assoc _ _ (List.drop size' _), List.take_append_drop, List.append_assoc, ← e]
      exact a1
    rw [← e']
  · rw [List.take_append_drop]; exact g2
  · rw [ts_finalize _ _ hm] at g3
    exact g3

theorem possessed_shown {x : Params} {messages m : Bytes} {cert : Certificate} {x5 : Model.X509} (hx : cert.x509 = some x5) (hm : messages.length < 2 ^ 53)
    (h : Possessed x messages m cert) : PossessionShown .client x x5 messages m := by
  obtain ⟨hs, h1, h2, h3⟩ := h
  obtain ⟨k1, k2, _, k4⟩ := handshake_inv h1
  have := verified_shown hx hm h3 (m.drop hs.raw.length) (fun h => (by cases h))
  rw [show Tls13.handshakeMessage 15#8 hs.fraqment = hs.raw from by rw [k1, h2]; rfl, ← k2] at this
  exact this

end ServerProof

/-- C43: with a client CA configured, a stream is handed out only to a client that showed, in its first two protected records and before its
Finished, a certificate signed by that CA, valid now and approved by the custom function, and possession of its key over the transcript.
Missing from the full property: that the validity period the library reads is the one the CA signed (`C50_false`) and that its calendar is
right (`C51_false`, `C52_false`). -/
theorem C43_client_auth_partial (env : ServerEnv) (reads : List Bytes) (sock : Socket) (s : TlsStream) (h : ServerHandshake) (ca : Certificate)
    (hc : env.config.cert.raw.length < 2 ^ 24) (hca : env.config.clientCertCa = some ca) (ha : ServerConnection.accept env reads sock = (.ok s, h)) :
    ∃ (r : Exchange) (context : Option Bytes) (m1 m2 fin tail raw : Bytes) (x : Model.X509), Accepted env reads sock s r context [m1, m2] fin tail ∧
      CertificateShown env ca context m1 raw x ∧ PossessionShown .client r.x x (r.transcript ++ m1) m2 := by
  obtain ⟨r, context, auth, fin, tail, hA⟩ := C42_server_accepts env reads sock s h hc ha
  have h1 := hA.authenticated
  unfold ClientAuth at h1
  rw [hca] at h1
  obtain ⟨m1, m2, cert, rfl, h2, h3⟩ := h1
  have hctx : ∀ c, context = some c → c.length = 32 := by
    obtain ⟨req, cv, hr, _⟩ := hA.flight
    unfold Requested at hr
    rw [hca] at hr
    obtain ⟨c, hl, rfl, _⟩ := hr
    intro c' hc'
    rw [← Option.some.inj hc']
    exact hl
  obtain ⟨ca', x, g1, g2, g3⟩ := ServerProof.presented_shown hctx h2
  have : ca' = ca := by rw [hca] at g1; exact (Option.some.inj g1).symm
  subst this
  refine ⟨r, context, m1, m2, fin, tail, cert.raw, x, hA, g3, ServerProof.possessed_shown g2 ?_ h3⟩
  have := hA.size.1
  have := hA.size.2.1
  simp only [List.flatten_cons, List.flatten_nil, List.length_append, List.append_nil] at this ⊢
  omega

/-! ### C44 -/

namespace ServerProof
open ServerHandshake

theorem record_err {env : ServerEnv} {record : Record} {h h' : ServerHandshake} {e : TlsError} (hw : handleRecord env record h = (.ok (), h'))
    (hst : h.state = .finishWithError e) : h'.state = .finishWithError e := by
  unfold handleRecord at hw
  rw [Step.bind_get] at hw
  by_cases hccs : record.contentType = .changeCipherSpec
  · rw [hccs] at hw
    simp only [] at hw
    split_ifs at hw with h1
    · exact absurd hw Step.throw_ok
    obtain ⟨_, rfl⟩ := Step.pure_ok.1 hw
    exact hst
  by_cases hal : record.contentType = .alert
  · rw [hal] at hw
    simp only [] at hw
    slift hw with ⟨c, e2, hw⟩
    exact absurd hw Step.throw_ok
  have hw' : handleEncryptedRecord env record h = (.ok (), h') := by
    cases ht : record.contentType with
    | changeCipherSpec => exact absurd ht hccs
    | alert => exact absurd ht hal
    | invalid => rw [ht, hst] at hw; exact hw
    | handshake => rw [ht, hst] at hw; exact hw
    | applicationData => rw [ht, hst] at hw; exact hw
  obtain ⟨content, h1, e1, hw⟩ := encrypted_step hw'
  obtain ⟨p', rfl⟩ := decrypt_frame e1
  simp only [hst] at hw
  exact (finish_err rfl hw).1

theorem records_err {env : ServerEnv} {e : TlsError} : ∀ (fuel : Nat) (rest : Bytes) (h h' : ServerHandshake), recordsLoop env fuel rest h = (.ok (), h') →
    h.state = .finishWithError e → h'.state = .finishWithError e := by
  intro fuel
  induction fuel with
  | zero =>
    intro rest h h' hw hst
    unfold recordsLoop at hw
    split_ifs at hw
    · obtain ⟨_, rfl⟩ := Step.pure_ok.1 hw
      exact hst
    · exact absurd hw Step.crash_ok
  | succ n ih =>
    intro rest h h' hw hst
    unfold recordsLoop at hw
    split_ifs at hw
    · obtain ⟨_, rfl⟩ := Step.pure_ok.1 hw
      exact hst
    · slift hw with ⟨⟨consumed, record⟩, e1, hw⟩
      sbind hw with ⟨u, h1, e2, hw⟩
      exact ih _ _ _ hw (record_err e2 hst)

theorem read_err {env : ServerEnv} {e : TlsError} : ∀ (fuel : Nat) (h h' : ServerHandshake), h.state = .finishWithError e → ¬ readLoop env fuel h = (.ok (), h') := by
  intro fuel
  induction fuel with
  | zero => intro h h' _ hw; exact absurd hw Step.crash_ok
  | succ n ih =>
    intro h h' hst hw
    unfold readLoop at hw
    rw [Step.bind_get] at hw
    rw [if_neg (by rw [hst]; exact fun hh => by cases hh)] at hw
    sbind hw with ⟨rx, h1, e1, hw⟩
    obtain ⟨s, e1', rfl⟩ := onStream_ok e1
    sbind hw with ⟨u, h2, e2, hw⟩
    have h3 := records_err _ _ _ _ e2 (by exact hst)
    sbind hw with ⟨u', h4, e4, hw⟩
    obtain ⟨s', e4', rfl⟩ := onStream_ok e4
    exact ih _ _ (by exact h3) hw

theorem withError_ok {env : ServerEnv} {h h' : ServerHandshake} (hw : doHandshakeWithError env h = (.ok (), h')) : doHandshake env h = (.ok (), h') := by
  unfold doHandshakeWithError at hw
  rcases hd : doHandshake env h with ⟨r, h1⟩
  rw [hd] at hw
  cases r with
  | ok u => exact hw
  | panic => cases hw
  | err e =>
    simp only [] at hw
    split_ifs at hw
    · sbind hw with ⟨u, h2, e2, hw⟩
      exact absurd hw Step.throw_ok
    · exact absurd hw Step.throw_ok

end ServerProof

/-- C44, an error recorded: from a state in which an error waits for the client's Finished no input makes the handshake succeed. -/
theorem C44_recorded (env : ServerEnv) (h h' : ServerHandshake) (e : TlsError) (hst : h.state = .finishWithError e) :
    ServerHandshake.doHandshakeWithError env h ≠ (.ok (), h') := by
  intro hw
  exact ServerProof.read_err _ _ _ hst (ServerProof.withError_ok hw)

/-- C44, an error returned: if the handling of the data of some read fails, the handshake fails, whatever follows it. -/
theorem C44_returned (env : ServerEnv) (h h1 h2 h' : ServerHandshake) (rx : Bytes) (e : TlsError) (hst : h.state ≠ .ready)
    (hr : ServerHandshake.onStream (fun s => s.tcpRead 4096) h = (.ok rx, h1)) (he : ServerHandshake.recordsLoop env rx.length rx h1 = (.err e, h2)) :
    ServerHandshake.doHandshakeWithError env h ≠ (.ok (), h') := by
  intro hw
  have hw := ServerProof.withError_ok hw
  unfold ServerHandshake.doHandshake ServerHandshake.readLoop at hw
  rw [Step.bind_get, if_neg hst, Step.bind_of_ok hr, Step.bind_of_err he] at hw
  cases hw

end ATLS
