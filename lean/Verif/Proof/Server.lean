import Verif.Props.ServerDefs
import Verif.Props.Negotiation
import Verif.Props.Certificate
/-
The server's state machine: what a completed handshake looks like on the wire.
-/
namespace ATLS
open ATLS.Model ATLS.Spec FlowProof

namespace ServerProof
open ServerHandshake RecProof

theorem write_hs {x : Params} {h h' : ServerHandshake} {p : RecordPayloadProtection} {nw nr : Nat} {m : Bytes}
    (hw : writeRecord .handshake m h = (.ok (), h'))
    (hp : h.stream.protection = some p) (hk : HsProt x false p nw nr) (hn : nw < 2 ^ 63) :
    ∃ wire p' s, h' = { h with stream := s } ∧ Tls13.Sent (aead x.c) (x.sess.key .server) (x.sess.iv .server) nw [m] wire ∧
      out s = out h.stream ++ wire ∧ s.protection = some p' ∧ HsProt x false p' (nw + 1) nr ∧
      s.stream.incoming = h.stream.stream.incoming := by
  unfold writeRecord onStream at hw
  simp only [] at hw
  rcases hs : h.stream.writeRecord .handshake m with ⟨r, s⟩
  rw [hs] at hw
  simp only [] at hw
  have h1 := (Prod.mk.inj hw).1
  have h2 := (Prod.mk.inj hw).2
  subst h1
  obtain ⟨wire, p', e1, e2, e3, e4⟩ := write_prot hp hs
  obtain ⟨e5, e6⟩ := encrypt_sent hk hn e1
  exact ⟨wire, p', s, h2.symm, e5, e2, e3, e6, e4⟩

theorem write_pl {h h' : ServerHandshake} {t : RecordType} {m : Bytes}
    (hw : writeRecord t m h = (.ok (), h')) (hp : h.stream.protection = none) :
    ∃ s, h' = { h with stream := s } ∧ out s = out h.stream ++ (Record.new t m).asBytes ∧ s.protection = none ∧
      s.stream.incoming = h.stream.stream.incoming := by
  unfold writeRecord onStream at hw
  simp only [] at hw
  rcases hs : h.stream.writeRecord t m with ⟨r, s⟩
  rw [hs] at hw
  simp only [] at hw
  have h1 := (Prod.mk.inj hw).1
  have h2 := (Prod.mk.inj hw).2
  subst h1
  obtain ⟨e1, e2, e3⟩ := write_plain hp hs
  exact ⟨s, h2.symm, e1, e2, e3⟩

theorem request_bytes (c : Bytes) : Certificate.getCertificateRequest c = .ok (Tls13.certificateRequest c [0x0403]) := by
  unfold Certificate.getCertificateRequest
  have : ServerExtension.serverAsBytes (.signatureAlgorithms [.ecdsaSecp256r1Sha256]) = .ok [0#8, 13#8, 0#8, 4#8, 0#8, 2#8, 4#8, 3#8] := by decide
  rw [this]
  simp only [Res.ok_bind]
  congr 1
  unfold Tls13.certificateRequest
  simp [beBytes, extensionsAsBytes]

theorem rng_bytes_length {rng rng' : Rng} {b : Bytes} (hr : ∃ reads, rng = .urandom reads)
    (h : (rng.bytes 32 : Res TlsError (Bytes × Rng)) = .ok (b, rng')) : b.length = 32 ∧ ∃ reads, rng' = .urandom reads := by
  obtain ⟨reads, rfl⟩ := hr
  unfold Rng.bytes at h
  obtain ⟨⟨r, rest⟩, h1, h⟩ := Res.bind_eq_ok.1 h
  obtain ⟨s, h2, h⟩ := Res.bind_eq_ok.1 h
  have h := Res.ok.inj h
  have hb := (Prod.mk.inj h).1
  have hr := (Prod.mk.inj h).2
  subst hb
  refine ⟨?_, rest, hr.symm⟩
  unfold slice at h2
  split_ifs at h2 with hc
  cases h2
  simp only [List.length_take, List.length_drop]
  omega

theorem sendRequest_ok {env : ServerEnv} {x : Params} {h h' : ServerHandshake} {p : RecordPayloadProtection} {nw nr : Nat} {m : Bytes} {y : TsHash}
    (hw : sendCertificateRequest env (ts x.t m) h = (.ok y, h')) (hr : ∃ reads, h.rng = .urandom reads)
    (hp : h.stream.protection = some p) (hk : HsProt x false p nw nr) (hn : nw < 2 ^ 62) (hc : h.certificateRequestContext = none) :
    ∃ request wire p' s context rng, h' = { h with stream := s, rng := rng, certificateRequestContext := context } ∧
      Requested env context request ∧ y = ts x.t (m ++ request.flatten) ∧
      Tls13.Sent (aead x.c) (x.sess.key .server) (x.sess.iv .server) nw request wire ∧
      out s = out h.stream ++ wire ∧ s.protection = some p' ∧ HsProt x false p' (nw + request.length) nr ∧
      s.stream.incoming = h.stream.stream.incoming ∧ request.length ≤ 1 ∧ request.flatten.length ≤ 100 := by
  unfold sendCertificateRequest at hw
  unfold Requested
  cases hca : env.config.clientCertCa with
  | none =>
    rw [hca] at hw
    obtain ⟨rfl, rfl⟩ := Step.pure_ok.1 hw
    refine ⟨[], [], p, h'.stream, none, h'.rng, ?_, ⟨rfl, rfl⟩, by simp, rfl, by simp, hp, hk, rfl, by simp, by simp⟩
    rw [← hc]
  | some ca =>
    rw [hca] at hw
    simp only [] at hw
    rw [Step.bind_get] at hw
    slift hw with ⟨⟨context, rng⟩, e2, hw⟩
    simp only [] at hw
    rw [Step.bind_modify] at hw
    slift hw with ⟨request, e4, hw⟩
    rw [request_bytes] at e4
    have e4 := Res.ok.inj e4
    subst e4
    sbind hw with ⟨u, h5, e5, hw⟩
    obtain ⟨rfl, rfl⟩ := Step.pure_ok.1 hw
    obtain ⟨wire, p', s, g1, g2, g3, g4, g5, g6⟩ := write_hs e5 hp hk (by omega)
    obtain ⟨hl, _⟩ := rng_bytes_length hr e2
    rw [toBytes_eq] at g2
    refine ⟨_, wire, p', s, some context, rng, g1, ⟨context, hl, rfl, rfl⟩, ?_, g2, g3, g4, g5, g6, by simp, ?_⟩
    · rw [ts_update, toBytes_eq]
      simp [HandshakeType.code]
    · simp [Tls13.handshakeMessage, Tls13.certificateRequest, beBytes_length, hl]

theorem cvBody_inv (role : Tls13.Role) {nonces : List Int} {key : PrivateKey} {t : HashType} {m body : Bytes} (hm : m.length < 2 ^ 53)
    (h : Certificate.getCertificateVerifyForHandshake nonces key (ts t m) (roleLabel role) = .ok body) :
    ∃ sig der, Ecdsa.sign nonces key (Sha2.sha256 (Tls13.verifyContent role ((rfcHash t).H m))) = .ok (some sig) ∧
      sig.toDer = .ok der ∧ body = Tls13.certificateVerifyMessage 0x0403 der ∧ der.length ≤ 100 := by
  obtain ⟨sig, der, h1, h2, h3⟩ := CertProof.sign_of_body h
  have hc := CertProof.content_eq (ts t m) role
  have hl := CertProof.finalize_le (ts t m)
  rw [ts_finalize t m hm] at hc hl
  have hc' : Certificate.verifyContent (ts t m) (roleLabel role) = Tls13.verifyContent role ((rfcHash t).H m) := hc
  rw [hc', (C06_sha256_fips _ (by
    simp only [Tls13.verifyContent, List.length_append, List.length_replicate, CertProof.context_length, List.length_singleton]
    omega)).1] at h1
  refine ⟨sig, der, h1, h2, ?_, ?_⟩
  · rw [h3]
    unfold Tls13.certificateVerifyMessage
    rw [RecProof.beBytes2, RecProof.beBytes2, Nat.shiftRight_eq_div_pow]
    rfl
  · unfold Signature.toDer at h2
    obtain ⟨sb, g1, h2⟩ := Res.bind_eq_ok.1 h2
    obtain ⟨rb, g2, h2⟩ := Res.bind_eq_ok.1 h2
    obtain ⟨r, g3, h2⟩ := Res.bind_eq_ok.1 h2
    obtain ⟨s, g4, h2⟩ := Res.bind_eq_ok.1 h2
    cases h2
    have hl : ∀ {b r : Bytes}, Signature.derInteger b = .ok r → r.length ≤ b.length + 3 := by
      intro b r hh
      unfold Signature.derInteger at hh
      obtain ⟨top, _, hh⟩ := Res.bind_eq_ok.1 hh
      split_ifs at hh <;> (cases hh; simp only [List.length_append, List.length_cons, List.length_nil]; omega)
    have l1 := hl g3
    have l2 := hl g4
    have l3 := to32_length g1
    have l4 := to32_length g2
    simp only [List.length_append, List.length_cons, List.length_nil]
    omega

theorem sendFlight_ok {env : ServerEnv} {x : Params} {h h' : ServerHandshake} {p : RecordPayloadProtection}
    (hw : sendFlight env (ts x.t x.hellos) h = (.ok (), h'))
    (hr : ∃ reads, h.rng = .urandom reads) (hl : x.hellos.length < 2 ^ 20) (hcl : env.config.cert.raw.length < 2 ^ 24)
    (hp : h.stream.protection = some p) (hk : HsProt x false p 0 0) (hc : h.certificateRequestContext = none) :
    ∃ flight wire p' s context rng, h' = { h with
        stream := s, rng := rng, certificateRequestContext := context
        state := if env.config.clientCertCa.isSome then .clientCertificate else .clientFinished
        tshash := some (ts x.t (x.hellos ++ flight.flatten)) } ∧
      ServerFlight env x context flight ∧ flight.flatten.length < 2 ^ 26 ∧
      Tls13.Sent (aead x.c) (x.sess.key .server) (x.sess.iv .server) 0 flight wire ∧
      out s = out h.stream ++ wire ∧ s.protection = some p' ∧ HsProt x false p' flight.length 0 ∧
      s.stream.incoming = h.stream.stream.incoming := by
  unfold sendFlight at hw
  simp only [] at hw
  sbind hw with ⟨u, h1, e1, hw⟩
  obtain ⟨w1, p1, s1, rfl, a2, a3, a4, a5, a6⟩ := write_hs e1 hp hk (by omega)
  rw [ts_update] at hw
  sbind hw with ⟨y, h2, e2, hw⟩
  obtain ⟨request, w2, p2, s2, context, rng, rfl, b1, b2, b3, b4, b5, b6, b7, b8, b9⟩ :=
    sendRequest_ok e2 hr a4 a5 (by omega) hc
  subst b2
  sbind hw with ⟨u, h3, e3, hw⟩
  obtain ⟨w3, p3, s3, rfl, c2, c3, c4, c5, c6⟩ := write_hs e3 b5 b6 (by omega)
  rw [ts_update] at hw
  slift hw with ⟨body, e4, hw⟩
  have hcm : Handshake.toBytes .certificate (env.config.cert.getCertificateForHandshake [0#8]) = certificateMsg env.config.cert := by
    rw [toBytes_eq]
    exact congrArg (Tls13.handshakeMessage 11#8) (C70_built env.config.cert [])
  have hee : Handshake.toBytes .encryptedExtensions (extensionsAsBytes []) = encryptedExtensions := by
    rw [toBytes_eq]; rfl
  rw [hcm, hee] at hw e4
  rw [hee] at a2
  rw [hcm] at c2
  have heel : encryptedExtensions.length = 6 := by decide
  have hcml : (certificateMsg env.config.cert).length ≤ 2 ^ 24 + 100 := by
    simp only [certificateMsg, Tls13.handshakeMessage, Tls13.certificateMessage, List.length_append, beBytes_length, List.length_cons, List.length_nil,
      List.map_cons, List.map_nil, List.flatten_cons, List.flatten_nil, Tls13.certificateEntry]
    omega
  rw [List.append_assoc] at e4
  obtain ⟨sig, der, d1, d2, rfl, d4⟩ := cvBody_inv .server (by simp only [List.length_append, heel]; omega) e4
  rw [ts_update, toBytes_eq] at hw
  obtain ⟨cv, hcv⟩ : ∃ cv, cv = Tls13.handshakeMessage HandshakeType.certificateVerify.code (Tls13.certificateVerifyMessage 1027 der) := ⟨_, rfl⟩
  have hcvl : cv.length ≤ 200 := by
    rw [hcv]
    simp only [Tls13.handshakeMessage, Tls13.certificateVerifyMessage, List.length_append, beBytes_length, List.length_cons, List.length_nil]
    omega
  rw [← hcv] at hw
  sbind hw with ⟨u, h4, e5, hw⟩
  obtain ⟨w4, p4, s4, rfl, f2, f3, f4, f5, f6⟩ := write_hs e5 c4 c5 (by omega)
  sbind hw with ⟨pp, h5, e6, hw⟩
  unfold getProtection at e6
  simp only [f4, Res.unwrap] at e6
  have e7 := Res.ok.inj (Prod.mk.inj e6).1
  have e8 := (Prod.mk.inj e6).2
  subst e7 e8
  have hks : p4.keySchedule.serverHandshakeTrafficSecret = ⟨x.t, x.sess.secret .server⟩ := by rw [f5.ks]; rfl
  rw [hks] at hw
  slift hw with ⟨fin, e9, hw⟩
  rw [finished_message x .server _ (by simp only [List.length_append, heel]; omega)] at e9
  have e9 := Res.ok.inj e9
  sbind hw with ⟨u, h6, e10, hw⟩
  obtain ⟨w5, p5, s5, rfl, i2, i3, i4, i5, i6⟩ := write_hs e10 f4 f5 (by omega)
  unfold setState at hw
  rw [Step.bind_modify] at hw
  have hw := Step.modify_ok.1 hw
  subst e9
  have hT : x.hellos ++ encryptedExtensions ++ request.flatten ++ certificateMsg env.config.cert ++ cv =
      x.hellos ++ ([encryptedExtensions] ++ request ++ [certificateMsg env.config.cert, cv]).flatten := by
    simp [List.append_assoc]
  have hT' : x.hellos ++ encryptedExtensions ++ (request.flatten ++ certificateMsg env.config.cert) =
      x.hellos ++ ([encryptedExtensions] ++ request ++ [certificateMsg env.config.cert]).flatten := by
    simp [List.append_assoc]
  rw [hT'] at d1
  rw [hT, ts_update] at hw
  rw [hT] at i2
  refine ⟨_, w1 ++ w2 ++ w3 ++ w4 ++ w5, p5, s5, context, rng, ?_, ⟨request, cv, b1, ⟨sig, der, d1, d2, hcv⟩, rfl⟩, ?_, ?_, ?_, i4, ?_, ?_⟩
  · rw [hw]
    simp [List.append_assoc]
  · have hfin := finished_le x .server (x.hellos ++ ([encryptedExtensions] ++ request ++ [certificateMsg env.config.cert, cv]).flatten) (by
      rw [← hT]; simp only [List.length_append, heel]; omega)
    simp only [List.flatten_append, List.flatten_cons, List.flatten_nil, List.length_append, List.append_nil, heel] at hfin ⊢
    omega
  · have t1 := sent_append _ _ _ _ _ _ _ _ a2 b3
    have t2 := sent_append _ _ _ _ _ 0 _ _ t1 (by
      rw [show 0 + ([encryptedExtensions] ++ request).length = 0 + 1 + request.length by simp; omega]; exact c2)
    have t3 := sent_append _ _ _ _ _ 0 _ _ t2 (by
      rw [show 0 + ([encryptedExtensions] ++ request ++ [certificateMsg env.config.cert]).length = 0 + 1 + request.length + 1 by simp; omega]; exact f2)
    have t4 := sent_append _ _ _ _ _ 0 _ _ t3 (by
      rw [show 0 + ([encryptedExtensions] ++ request ++ [certificateMsg env.config.cert] ++ [cv]).length = 0 + 1 + request.length + 1 + 1 by simp; omega]
      exact i2)
    simpa [List.append_assoc] using t4
  · rw [i3, f3, c3, b4, a3]
    simp only [List.append_assoc]
  · have : ([encryptedExtensions] ++ request ++ [certificateMsg env.config.cert, cv, x.sess.finished Tls13.Side.server
        (x.hellos ++ ([encryptedExtensions] ++ request ++ [certificateMsg env.config.cert, cv]).flatten)]).length = 0 + 1 + request.length + 1 + 1 + 1 := by
      simp; omega
    rw [this]
    exact i5
  · rw [i6, f6, c6, b7, a6]

theorem new_bytes (t : RecordType) (f : Bytes) : (Record.new t f).asBytes = Tls13.plainRecord t.code f := by
  unfold Record.asBytes Record.new Tls13.plainRecord
  rw [RecProof.beBytes2]
  simp

def Urandom (r : Rng) : Prop := ∃ reads, r = .urandom reads

theorem urandom_loop : ∀ (l : List KeyShareEntry) (s s' : ServerHello.Negotiation), Urandom s.rng → ServerHello.keyShareLoop l s = .ok s' → Urandom s'.rng
  | [], s, s', hi, h => by cases h; exact hi
  | k :: rest, s, s', hi, h => by
    obtain ⟨g, o⟩ := k
    have ih := urandom_loop rest s s' hi
    rw [ServerHello.keyShareLoop] at h
    cases g <;> simp only [] at h <;> first | exact ih h | cases h | skip
    obtain ⟨⟨v, rng'⟩, hb, h2⟩ := Res.bind_eq_ok.1 h
    have hr2 : s'.rng = rng' := by
      cases hk : keyShareOf { curve := Curve.curve25519, secret := v } with
      | ok kse => simp only [hk] at h2; cases h2; rfl
      | err e => simp only [hk] at h2; cases h2
      | panic => simp only [hk] at h2; cases h2
    rw [hr2]
    obtain ⟨reads, hr⟩ := hi
    rw [hr] at hb
    unfold Rng.between at hb
    simp only [] at hb
    obtain ⟨⟨w, rd⟩, _, hb⟩ := Res.bind_eq_ok.1 hb
    split_ifs at hb
    cases hb
    exact ⟨rd, rfl⟩

theorem urandom_fold (name : Option Bytes) : ∀ (l : List ClientExtension) (s s' : ServerHello.Negotiation), Urandom s.rng →
    l.foldlM (ServerHello.onExtension name) s = .ok s' → Urandom s'.rng
  | [], s, s', hi, h => by cases h; exact hi
  | e :: l, s, s', hi, h => by
    rw [List.foldlM_cons] at h
    obtain ⟨t, h1, h2⟩ := Res.bind_eq_ok.1 h
    refine urandom_fold name l t s' ?_ h2
    cases e with
    | supportedVersion b => simp only [ServerHello.onExtension] at h1; split_ifs at h1; cases h1; exact hi
    | supportedGroups g => cases h1; exact hi
    | keyShare k => exact urandom_loop _ _ _ hi h1
    | serverName n =>
      cases name with
      | none => cases h1; exact hi
      | some m => simp only [ServerHello.onExtension] at h1; split_ifs at h1; cases h1; exact hi
    | signatureAlgorithms l => simp only [ServerHello.onExtension] at h1; split_ifs at h1; cases h1; exact hi

/-- `from_client_hello` succeeds only with the system generator. -/
theorem urandom_hello {ch : ClientHello} {rng : Rng} {name : Option Bytes} {sh : ServerHello} {pk : PrivateKey} {rng' : Rng}
    (h : ServerHello.fromClientHello ch rng name = .ok (sh, pk, rng')) : Urandom rng ∧ Urandom rng' := by
  obtain ⟨random, rng1, s, cs, h1, h2, h3, h4, h5, h6, rfl, rfl⟩ := NegProof.ok_iff h
  cases rng with
  | simple seed =>
    simp only [Rng.bytes] at h1
    rw [if_neg (by decide)] at h1
    cases h1
    simp at h2
  | urandom reads => exact ⟨⟨reads, rfl⟩, urandom_fold name _ _ _ (show Urandom rng1 from (rng_bytes_length ⟨reads, rfl⟩ h1).2) h3⟩

theorem log_ok {env : ServerEnv} {p : Option RecordPayloadProtection} {r : Bytes} {h h' : ServerHandshake}
    (hw : logHandshakeSecrets env p r h = (.ok (), h')) : ∃ k l, h' = { h with keylog := k, logged := l } ∧
      ∀ q, p = some q → h.keylog = none → h.logged = [] → k = env.config.keylog.map (KeyLog.new · r) ∧
        l = env.config.keylog.toList.map fun f => (KeyLog.new f r).handshakeTrafficSecrets q.handshakeKeys.server.trafficSecret q.handshakeKeys.client.trafficSecret := by
  unfold logHandshakeSecrets at hw
  cases hk : env.config.keylog with
  | none =>
    rw [hk] at hw
    obtain ⟨_, rfl⟩ := Step.pure_ok.1 hw
    exact ⟨_, _, rfl, fun q _ h1 h2 => ⟨by rw [h1]; rfl, by rw [h2]; rfl⟩⟩
  | some f =>
    cases p with
    | none =>
      rw [hk] at hw
      obtain ⟨_, rfl⟩ := Step.pure_ok.1 hw
      exact ⟨_, _, rfl, fun q hq => by cases hq⟩
    | some p =>
      rw [hk] at hw
      refine ⟨_, _, Step.modify_ok.1 hw, fun q hq _ h2 => ?_⟩
      cases hq
      exact ⟨rfl, by rw [h2]; rfl⟩

/-- The random value of a ClientHello is where RFC 8446 puts it. -/
theorem hello_random {ch sh : Bytes} {hs : Handshake} {hello : ClientHello} (h1 : Handshake.fromRaw ch = .ok hs) (h2 : ClientHello.fromRaw hs.fraqment = .ok hello) :
    hello.random = ((ch ++ sh).drop 6).take 32 := by
  obtain ⟨g1, g2, g3, g4⟩ := handshake_inv h1
  unfold ClientHello.fromRaw at h2
  by_cases hl : hs.fraqment.length < 45
  · rw [if_pos hl] at h2; cases h2
  rw [if_neg hl] at h2
  obtain ⟨v0, _, h2⟩ := Res.bind_eq_ok.1 h2
  obtain ⟨v1, _, h2⟩ := Res.bind_eq_ok.1 h2
  split_ifs at h2
  obtain ⟨random, hr, h2⟩ := Res.bind_eq_ok.1 h2
  obtain ⟨_, _, h2⟩ := Res.bind_eq_ok.1 h2
  obtain ⟨⟨consumed, sid⟩, _, h2⟩ := Res.bind_eq_ok.1 h2
  obtain ⟨_, _, h2⟩ := Res.bind_eq_ok.1 h2
  obtain ⟨_, _, h2⟩ := Res.bind_eq_ok.1 h2
  simp only [] at h2
  split_ifs at h2
  obtain ⟨_, _, h2⟩ := Res.bind_eq_ok.1 h2
  obtain ⟨_, _, h2⟩ := Res.bind_eq_ok.1 h2
  obtain ⟨_, _, h2⟩ := Res.bind_eq_ok.1 h2
  obtain ⟨_, _, h2⟩ := Res.bind_eq_ok.1 h2
  obtain ⟨_, _, h2⟩ := Res.bind_eq_ok.1 h2
  cases h2
  have hr' : random = (hs.fraqment.drop 2).take 32 := by
    unfold slice at hr
    split_ifs at hr
    exact (Res.ok.inj hr).symm
  show random = _
  obtain ⟨tail, htail⟩ : ∃ tail, tail = ch.drop hs.raw.length ++ sh := ⟨_, rfl⟩
  obtain ⟨pre, hpre⟩ : ∃ pre, pre = [hs.handshakeType.code] ++ beBytes 3 hs.fraqment.length ++ hs.fraqment.take 2 := ⟨_, rfl⟩
  have hpl : pre.length = 6 := by
    rw [hpre]
    simp only [List.length_append, List.length_cons, List.length_nil, beBytes_length, List.length_take]
    omega
  have e : ch ++ sh = pre ++ (hs.fraqment.drop 2 ++ tail) := by
    rw [htail, hpre]
    conv_lhs => rw [g2]
    conv_lhs => rw [g1, Tls13.handshakeMessage]
    rw [← List.take_append_drop 2 hs.fraqment]
    simp only [List.append_assoc]
    rw [List.take_append_drop 2 hs.fraqment]
    rw [g1]
    rfl
  rw [e, ← hpl, List.drop_left, List.take_append_of_le_length (by rw [List.length_drop]; omega)]
  exact hr'

/-- The ClientHello is answered: what the client sent, what the server sends and the keys that are then in use. -/
theorem hello_ok {env : ServerEnv} {reads : List Bytes} {h h' : ServerHandshake} {record : Record}
    (hw : handleClientHello env record h = (.ok (), h')) (hrng : h.rng = .urandom reads ∨ ¬ Urandom h.rng) (hcl : env.config.cert.raw.length < 2 ^ 24)
    (hfl : record.fraqment.length ≤ 4096) (hp : h.stream.protection = none) (hc : h.certificateRequestContext = none) :
    ∃ (x : Params) (sh ccs wire : Bytes) (flight : List Bytes) (p : RecordPayloadProtection), x.Ok ∧ x.hellos.length < 2 ^ 20 ∧
      HelloAnswered env reads x record.fraqment sh ccs ∧
      ServerFlight env x h'.certificateRequestContext flight ∧ flight.flatten.length < 2 ^ 26 ∧
      Tls13.Sent (aead x.c) (x.sess.key .server) (x.sess.iv .server) 0 flight wire ∧
      out h'.stream = out h.stream ++ (Tls13.plainRecord 22#8 sh ++ ccs ++ wire) ∧
      h'.stream.protection = some p ∧ HsProt x false p flight.length 0 ∧ h'.stream.stream.incoming = h.stream.stream.incoming ∧
      h'.state = (if env.config.clientCertCa.isSome then .clientCertificate else .clientFinished) ∧
      h'.tshash = some (ts x.t (x.hellos ++ flight.flatten)) ∧ h'.clientCert = h.clientCert ∧
      h'.tshashClienthelloServerfinished = h.tshashClienthelloServerfinished ∧
      (h.keylog = none → h.logged = [] → Logs env.config.keylog x h'.keylog h'.logged) := by
  unfold handleClientHello at hw
  slift hw with ⟨hs, e1, hw⟩
  split_ifs at hw with hty
  · exact absurd hw Step.throw_ok
  have hty : hs.handshakeType = .clientHello := by simpa using hty
  slift hw with ⟨hello, e2, hw⟩
  rw [Step.bind_get] at hw
  slift hw with ⟨⟨answer, pk, rng⟩, e3, hw⟩
  simp only [] at hw
  rw [Step.bind_modify] at hw
  slift hw with ⟨t, e4, hw⟩
  slift hw with ⟨body, e5, hw⟩
  have hfr := (handshake_inv e1).2.2.1
  obtain ⟨body', shares, g1, g2, g3, _⟩ := C36_reachable hs.fraqment hello h.rng env.config.serverName answer pk rng (by omega) e2 e3
  rw [e5] at g1
  have g1 := Res.ok.inj g1
  subst g1
  rw [ts_new, toBytes_eq, ts_update] at hw
  obtain ⟨sh, hsh⟩ : ∃ sh, sh = Tls13.handshakeMessage HandshakeType.serverHello.code body := ⟨_, rfl⟩
  have hshl : sh.length = body.length + 4 := by
    rw [hsh]; simp only [Tls13.handshakeMessage, List.length_append, beBytes_length, List.length_cons, List.length_nil]; omega
  rw [← hsh] at hw
  sbind hw with ⟨u, h1, e6, hw⟩
  obtain ⟨s1, rfl, a1, a2, a3⟩ := write_pl e6 hp
  sbind hw with ⟨u, h2, e7, hw⟩
  obtain ⟨ccs, s2, hccs, rfl, b1, b2, b3⟩ : ∃ ccs s2, ccs = (if hello.legacySessionIdEcho.isSome then Tls13.plainRecord 20#8 [1#8] else []) ∧
      h2 = { h with rng := rng, stream := s2 } ∧ out s2 = out s1 ++ ccs ∧ s2.protection = none ∧ s2.stream.incoming = s1.stream.incoming := by
    unfold sendChangeCipherSpec at e7
    split_ifs at e7 with hsid
    · obtain ⟨s2, c1, c2, c3, c4⟩ := write_pl e7 a2
      rw [new_bytes] at c2
      exact ⟨_, s2, rfl, c1, by rw [if_pos hsid]; exact c2, c3, c4⟩
    · obtain ⟨_, rfl⟩ := Step.pure_ok.1 e7
      exact ⟨_, s1, rfl, rfl, by rw [if_neg hsid]; simp, a2, rfl⟩
  slift hw with ⟨kse, e8, hw⟩
  slift hw with ⟨ks, e9, hw⟩
  slift hw with ⟨c, e10, hw⟩
  obtain ⟨secret, i1, i2, i3, i4⟩ := fromHandshake_params (by simp only [List.length_append]; omega) e9 answer.cipherSuite c
  obtain ⟨x, hx⟩ : ∃ x, x = Params.mk t answer.cipherSuite c secret (record.fraqment ++ sh) := ⟨_, rfl⟩
  have hok : x.Ok := ⟨by rw [hx]; exact e10, by rw [hx, i3]; norm_num⟩
  rw [← hx] at i4
  subst i4
  slift hw with ⟨protection, e11, hw⟩
  obtain ⟨w, _, k1, _⟩ := new_ok x.ks c false
  rw [k1] at e11
  have e11 := Res.ok.inj e11
  have hcx : c = x.c := by rw [hx]
  have hprot := new_hsProt hok false (p := ⟨x.ks, c, w, false, none⟩) (by rw [← hcx]; exact k1)
  sbind hw with ⟨u, h3, e12, hw⟩
  obtain ⟨kl, lg, rfl, hlog⟩ := log_ok e12
  unfold setProtection at hw
  rw [Step.bind_modify] at hw
  have htx : ts t (record.fraqment ++ sh) = ts x.t x.hellos := by rw [hx]
  rw [htx] at hw
  have hxl : x.hellos.length < 2 ^ 20 := by rw [hx]; simp only [List.length_append]; omega
  obtain ⟨flight, wire, p', s', context, rng', j1, j2, j3, j4, j5, j6, j7, j8⟩ :=
    sendFlight_ok (x := x) (p := ⟨x.ks, c, w, false, none⟩) hw (urandom_hello e3).2 hxl hcl (by rw [← e11]; rfl) hprot hc
  subst j1
  have hrd : h.rng = .urandom reads := hrng.resolve_right (not_not.2 (urandom_hello e3).1)
  refine ⟨x, sh, ccs, wire, flight, p', hok, hxl, ⟨rng, hs, hello, answer, pk, kse, body, e1, hty, e2, by rw [← hrd]; exact e3, e5, hsh, ?_, i1, ?_, hccs, ?_, ?_, ?_, ?_⟩, j2, j3, j4, ?_, j6, j7, ?_, rfl, rfl, rfl, rfl, ?_⟩
  · cases hk : hello.getPublicKeyShare with
    | none => rw [hk] at e8; cases e8
    | some v => rw [hk] at e8; cases e8; rfl
  · rw [hx]; exact i2
  · rw [hx]
  · rw [hx]; exact e4
  · rw [hx]; exact e10
  · rw [hx]
  · rw [j5]
    change out s2 ++ wire = _
    rw [b1, a1, new_bytes]
    simp only [List.append_assoc]
    rfl
  · rw [j8]
    change s2.stream.incoming = _
    rw [b3, a3]
  · intro hk hl
    obtain ⟨q1, q2⟩ := hlog _ e11.symm hk hl
    obtain ⟨q3, q4⟩ := hs_secrets hprot rfl
    have hr : hello.random = x.random := by
      unfold Params.random
      rw [hx]
      exact hello_random e1 e2
    rw [hr] at q1 q2
    simp only [] at q3 q4
    exact ⟨q1, by rw [q2]; unfold hsLog; simp only []; rw [q3, q4]⟩

/-! ### The records of the client after its hello -/

theorem decryptRecord_ok {x : Params} (hx : x.Ok) {h h' : ServerHandshake} {p : RecordPayloadProtection} {nw nr : Nat} {record : Record} {t : RecordType}
    {content buf : Bytes} {n : Nat} (hw : decryptRecord record h = (.ok (t, content), h')) (hp : h.stream.protection = some p)
    (hk : HsProt x false p nw nr) (hn : nr < 2 ^ 63) (hr : Record.fromRaw buf = .ok (n, record)) (ht : t ≠ .invalid) :
    ∃ p', h' = { h with stream := h.stream.setProtection (some p') } ∧ HsProt x false p' nw (nr + 1) ∧ content.length < 2 ^ 16 ∧
      Tls13.Carries (aead x.c) (x.sess.key .client) (x.sess.iv .client) nr t.code content (buf.take n) := by
  unfold decryptRecord at hw
  sbind hw with ⟨pp, h1, e1, hw⟩
  unfold getProtection at e1
  simp only [hp, Res.unwrap] at e1
  have e2 := Res.ok.inj (Prod.mk.inj e1).1
  have e3 := (Prod.mk.inj e1).2
  subst e2 e3
  rcases hd : p.decrypt record with ⟨r, p'⟩
  simp only [hd] at hw
  have h1 := (Prod.mk.inj hw).1
  have h2 := (Prod.mk.inj hw).2
  subst h1
  obtain ⟨g1, g2, g3⟩ := decrypt_carries hx hk hn hr ht hd
  exact ⟨p', h2.symm, g2, g3.1, g1⟩

theorem tshash_ok {h h' : ServerHandshake} {t y : TsHash} (hw : getTshash h = (.ok y, h')) (ht : h.tshash = some t) : y = t ∧ h' = h := by
  unfold getTshash at hw
  rw [ht] at hw
  cases hw
  exact ⟨rfl, rfl⟩

theorem update_ok {h h' : ServerHandshake} {t : TsHash} {b : Bytes} (hw : updateTshash b h = (.ok (), h')) (ht : h.tshash = some t) :
    h' = { h with tshash := some (t.update b) } := by
  unfold updateTshash at hw
  sbind hw with ⟨y, h1, e1, hw⟩
  obtain ⟨rfl, rfl⟩ := tshash_ok e1 ht
  exact Step.modify_ok.1 hw

/-- Certificate: either the connection is doomed, or the certificate is good. -/
theorem certificate_ok {env : ServerEnv} {h h' : ServerHandshake} {t : HashType} {m : Bytes} {record : Record} {context : Bytes}
    (hw : handleClientCertificate env record h = (.ok (), h')) (ht : h.tshash = some (ts t m)) (hc : h.certificateRequestContext = some context) :
    (∃ e, h'.state = .finishWithError e ∧ h'.stream = h.stream) ∨
    ∃ cert, Presented env (some context) record.fraqment cert ∧ h' = { h with
      tshash := some (ts t (m ++ record.fraqment)), tshashClienthelloServerfinished := some (ts t m), clientCert := some cert, state := .clientCertificateVerify } := by
  unfold handleClientCertificate at hw
  slift hw with ⟨hs, e1, hw⟩
  cases hca : env.config.clientCertCa with
  | none => rw [hca] at hw; exact absurd hw Step.throw_ok
  | some ca =>
    rw [hca] at hw
    simp only [] at hw
    split_ifs at hw with hty
    · exact absurd hw Step.throw_ok
    have hty : hs.handshakeType = .certificate := by simpa using hty
    sbind hw with ⟨y, h1, e2, hw⟩
    obtain ⟨rfl, rfl⟩ := tshash_ok e2 ht
    rw [Step.bind_modify] at hw
    sbind hw with ⟨u, h2, e3, hw⟩
    have e3 := update_ok (t := ts t m) e3 ht
    subst e3
    slift hw with ⟨n, e4, hw⟩
    slift hw with ⟨ctx, e5, hw⟩
    rw [Step.bind_get] at hw
    slift hw with ⟨expected, e6, hw⟩
    have e6' : Res.unwrap (ε := TlsError) (some context) = .ok expected := by rw [← hc]; exact e6
    cases e6'
    split_ifs at hw with hctx
    · exact absurd hw Step.throw_ok
    have hctx : ctx = context := by simpa using hctx
    subst hctx
    cases hfh : Certificate.fromHello env.now hs.fraqment with
    | panic => rw [hfh] at hw; exact absurd hw Step.crash_ok
    | err e => 
      rw [hfh] at hw
      have hw := Step.modify_ok.1 hw
      subst hw
      exact .inl ⟨e, rfl, rfl⟩
    | ok certs =>
      rw [hfh] at hw
      simp only [] at hw
      slift hw with ⟨cert, e7, hw⟩
      have hcerts : certs = [cert] := by
        unfold Certificate.fromHello at hfh
        obtain ⟨_, _, hfh⟩ := Res.bind_eq_ok.1 hfh
        obtain ⟨_, _, hfh⟩ := Res.bind_eq_ok.1 hfh
        simp only [] at hfh
        split_ifs at hfh
        obtain ⟨_, _, hfh⟩ := Res.bind_eq_ok.1 hfh
        obtain ⟨_, _, hfh⟩ := Res.bind_eq_ok.1 hfh
        obtain ⟨cert', _, hfh⟩ := Res.bind_eq_ok.1 hfh
        obtain ⟨_, _, hfh⟩ := Res.bind_eq_ok.1 hfh
        obtain ⟨_, _, hfh⟩ := Res.bind_eq_ok.1 hfh
        obtain ⟨_, _, hfh⟩ := Res.bind_eq_ok.1 hfh
        split_ifs at hfh
        cases hfh
        simp only [List.getLast?_singleton, Res.unwrap] at e7
        cases e7
        rfl
      cases hsg : ca.hasSigned cert with
      | panic => rw [hsg] at hw; exact absurd hw Step.crash_ok
      | err e =>
        rw [hsg] at hw
        have hw := Step.modify_ok.1 hw
        subst hw
        exact .inl ⟨_, rfl, rfl⟩
      | ok u =>
        rw [hsg] at hw
        simp only [] at hw
        slift hw with ⟨x, e8, hw⟩
        have hx : cert.x509 = some x := by
          cases hxx : cert.x509 with
          | none => rw [hxx] at e8; cases e8
          | some v => rw [hxx] at e8; cases e8; rfl
        obtain ⟨allowed, hal, hw⟩ : ∃ allowed : Bool, (∀ f, env.config.clientCertCustomVerifyFn = some f → f x = allowed) ∧
            (if (!allowed) = true then setState (ServerHsState.finishWithError TlsError.accessDenied)
            else do
              Step.modify fun h => { h with clientCert := some cert }
              setState ServerHsState.clientCertificateVerify)
            { h1 with tshash := some ((ts t m).update record.fraqment), tshashClienthelloServerfinished := some (ts t m) } = (Res.ok (), h') := by
          cases hfn : env.config.clientCertCustomVerifyFn with
          | none => rw [hfn] at hw; exact ⟨true, by simp, hw⟩
          | some f => rw [hfn] at hw; exact ⟨f x, by simp, hw⟩
        cases allowed with
        | false =>
          rw [if_pos (by rfl)] at hw
          have hw := Step.modify_ok.1 hw
          subst hw
          exact .inl ⟨_, rfl, rfl⟩
        | true =>
          simp only [Bool.not_true, Bool.false_eq_true, if_false] at hw
          rw [Step.bind_modify] at hw
          have hw := Step.modify_ok.1 hw
          refine .inr ⟨cert, ⟨ca, hs, ctx, hs.fraqment.drop (1 + ctx.length), x, hca, e1, hty, rfl, ?_, by rw [hfh, hcerts], hsg, hx, ?_⟩, ?_⟩
          · cases hf : hs.fraqment with
            | nil => rw [hf] at e4; simp [idx] at e4
            | cons b tl =>
              rw [hf] at e4 e5
              simp only [idx, List.getElem?_cons_zero] at e4
              have e4 : b = n := by simpa using e4
              subst e4
              unfold slice at e5
              split_ifs at e5 with hc5
              have e5 := (Res.ok.inj e5).symm
              have hl : ctx.length = b.toNat := by
                rw [e5]; simp only [List.length_take, List.length_drop, List.length_cons]
                simp only [List.length_cons] at hc5
                omega
              have e6 : ctx = tl.take b.toNat := by rw [e5]; simp
              rw [hl, Nat.add_comm 1, List.drop_succ_cons]
              rw [e6]
              simp [beBytes]
          · intro f hf
            exact hal f hf
          · rw [hw, ts_update]

theorem toU16_two {l a : Bytes} {i : Nat} (h : (slice l i (i + 2) : Res TlsError Bytes) = .ok a) : a = beBytes 2 (toU16 a) := by
  unfold slice at h
  split_ifs at h with hc
  have h := (Res.ok.inj h).symm
  have hl : a.length = 2 := by
    rw [h]; simp only [List.length_take, List.length_drop]; omega
  rcases a with _ | ⟨b0, _ | ⟨b1, _ | ⟨b2, tl⟩⟩⟩ <;> simp at hl
  clear h hc
  have e : ((b0.toNat <<< 8) ||| b1.toNat) = b0.toNat * 256 + b1.toNat := by
    rw [← Nat.shiftLeft_add_eq_or_of_lt b1.isLt b0.toNat, Nat.shiftLeft_eq]
  simp only [toU16]
  rw [e, RecProof.beBytes2]
  have e1 : (b0.toNat * 256 + b1.toNat) / 256 = b0.toNat := by have := b1.isLt; omega
  rw [e1]
  congr 1
  · simp
  · congr 1
    apply BitVec.eq_of_toNat_eq
    rw [BitVec.toNat_ofNat]
    have := b1.isLt
    omega

/-- CertificateVerify: either the connection is doomed, or the client holds the key. -/
theorem certificateVerify_ok {x : Params} {h h' : ServerHandshake} {m : Bytes} {record : Record} {cert : Certificate}
    (hw : handleClientCertificateVerify record h = (.ok (), h')) (ht : h.tshash = some (ts x.t m)) (hc : h.clientCert = some cert) :
    (∃ e, h'.state = .finishWithError e ∧ h'.stream = h.stream) ∨
    Possessed x m record.fraqment cert ∧ h' = { h with tshash := some (ts x.t (m ++ record.fraqment)), state := .clientFinished } := by
  unfold handleClientCertificateVerify at hw
  slift hw with ⟨hs, e1, hw⟩
  rw [Step.bind_get, hc] at hw
  simp only [] at hw
  split_ifs at hw with hty
  · exact absurd hw Step.throw_ok
  have hty : hs.handshakeType = .certificateVerify := by simpa using hty
  slift hw with ⟨a, e2, hw⟩
  slift hw with ⟨algo, e3, hw⟩
  split_ifs at hw with halg
  · exact absurd hw Step.crash_ok
  have halg : algo = .ecdsaSecp256r1Sha256 := by simpa using halg
  subst halg
  slift hw with ⟨der, e4, hw⟩
  cases hd : Signature.fromDer der with
  | panic => rw [hd] at hw; exact absurd hw Step.crash_ok
  | err e =>
    rw [hd] at hw
    have hw := Step.modify_ok.1 hw
    subst hw
    exact .inl ⟨_, rfl, rfl⟩
  | ok v =>
    obtain ⟨sig, size⟩ := v
    rw [hd] at hw
    simp only [] at hw
    sbind hw with ⟨y, h1, e5, hw⟩
    obtain ⟨rfl, rfl⟩ := tshash_ok e5 ht
    slift hw with ⟨valid, e6, hw⟩
    cases valid with
    | false =>
      rw [if_pos (by rfl)] at hw
      have hw := Step.modify_ok.1 hw
      subst hw
      exact .inl ⟨_, rfl, rfl⟩
    | true =>
      simp only [Bool.not_true, Bool.false_eq_true, if_false] at hw
      slift hw with ⟨l, e7, hw⟩
      split_ifs at hw with hl
      · have hw := Step.modify_ok.1 hw
        subst hw
        exact .inl ⟨_, rfl, rfl⟩
      have hl : toU16 l = size := by simpa using hl
      sbind hw with ⟨u, h2, e8, hw⟩
      have e8 := update_ok (t := ts x.t m) e8 ht
      subst e8
      have hw := Step.modify_ok.1 hw
      refine .inr ⟨⟨hs, e1, hty, sig, size, ?_, ?_, ?_, e6⟩, ?_⟩
      · rw [e2]
        have := toU16_two (i := 0) e2
        have h403 : toU16 a = 0x0403 := by
          unfold SignatureScheme.new at e3
          by_cases h1 : toU16 a = 0x0403
          · exact h1
          · rw [if_neg h1] at e3
            split_ifs at e3 <;> cases e3
        rw [this, h403]
        rfl
      · have : der = hs.fraqment.drop 4 := by
          unfold sliceFrom at e4
          split_ifs at e4
          exact (Res.ok.inj e4).symm
        rw [← this]; exact hd
      · rw [e7, ← hl, ← toU16_two (i := 2) e7]
      · rw [hw, ts_update]

theorem logApp_ok {p : RecordPayloadProtection} {h h' : ServerHandshake} (hw : logApplicationSecrets p h = (.ok (), h')) :
    ∃ l, h' = { h with logged := l } ∧ l = h.logged ++ h.keylog.toList.map (·.fromProtection p) := by
  unfold logApplicationSecrets at hw
  cases hk : h.keylog with
  | none =>
    rw [hk] at hw
    refine ⟨h.logged, ?_, by simp⟩
    rw [← hk]
    exact (Prod.mk.inj hw).2.symm
  | some k => rw [hk] at hw; exact ⟨_, (Prod.mk.inj hw).2.symm, rfl⟩

/-- Finished in the state where it is expected: the content starts with the right Finished message, and the application keys are installed. -/
theorem finish_ok {x : Params} (hx : x.Ok) {h h' : ServerHandshake} {p : RecordPayloadProtection} {nw nr : Nat} {m0 m : Bytes} {record : Record}
    (hw : handleClientFinish record h = (.ok (), h')) (hst : h.state = .clientFinished) (hp : h.stream.protection = some p) (hk : HsProt x false p nw nr)
    (ht : h.tshash = some (ts x.t m)) (h0 : (h.tshashClienthelloServerfinished = some (ts x.t m0)) ∨ (h.tshashClienthelloServerfinished = none ∧ m0 = m))
    (hm0 : m0.length < 2 ^ 53) (hm : m.length < 2 ^ 53) :
    ∃ rest p' l, record.fraqment = x.sess.finished .client m ++ rest ∧
      wKey p' = x.appKey m0 .server ∧ rKey p' = x.appKey m0 .client ∧ p'.cipher = x.c ∧ p'.isClient = false ∧ p'.keySchedule = x.ks ∧
      (∀ path, Logs path x h.keylog h.logged → l = hsLog path x ++ appLog path x m0) ∧
      h' = { h with stream := h.stream.setProtection (some p'), logged := l, state := .ready } := by
  unfold handleClientFinish at hw
  slift hw with ⟨hs, e1, hw⟩
  rw [Step.bind_get] at hw
  split_ifs at hw with hty
  · rw [hst] at hw; exact absurd hw Step.throw_ok
  have hty : hs.handshakeType = .finished := by simpa using hty
  sbind hw with ⟨pp, h1, e2, hw⟩
  unfold getProtection at e2
  simp only [hp, Res.unwrap] at e2
  have e3 := Res.ok.inj (Prod.mk.inj e2).1
  have e4 := (Prod.mk.inj e2).2
  subst e3 e4
  sbind hw with ⟨y, h2, e5, hw⟩
  obtain ⟨rfl, rfl⟩ := tshash_ok e5 ht
  slift hw with ⟨vd, e6, hw⟩
  have hks : p.keySchedule.clientHandshakeTrafficSecret = ⟨x.t, x.sess.secret .client⟩ := by rw [hk.ks]; rfl
  rw [hks, verify_data x .client m hm] at e6
  have e6 := Res.ok.inj e6
  subst e6
  split_ifs at hw with hvd
  · exact absurd hw Step.throw_ok
  have hvd : hs.fraqment = Tls13.verifyData (rfcHash x.t) (x.sess.secret .client) ((rfcHash x.t).H m) := by simpa using hvd
  slift hw with ⟨p', e7, hw⟩
  have e7' : p.generateApplicationKeys (ts x.t m0) = .ok p' := by
    rcases h0 with h0 | ⟨h0, h00⟩
    · rw [h0] at e7; exact e7
    · rw [h0] at e7; rw [h00]; exact e7
  obtain ⟨g1, g2, g3, g4, g5⟩ := generate_app hx hk hm0 e7'
  unfold setProtection at hw
  rw [Step.bind_modify] at hw
  sbind hw with ⟨u, h3, e8, hw⟩
  obtain ⟨l, rfl, hl⟩ := logApp_ok e8
  rw [hst] at hw
  have hw := Step.modify_ok.1 hw
  obtain ⟨i1, i2, _⟩ := handshake_inv e1
  refine ⟨record.fraqment.drop hs.raw.length, p', l, ?_, g1, g2, g3, g4, g5, ?_, hw⟩
  swap
  · intro path hlogs
    rw [hl]
    exact app_logged hlogs fun k => app_chunk (x := x) (b := false) (m := m0) k e7' g1 g2 g4
  rw [hty, hvd] at i1
  have : x.sess.finished .client m = hs.raw := i1.symm
  rw [this]; exact i2

/-- Finished after an error was recorded never succeeds in leaving the error. -/
theorem finish_err {h h' : ServerHandshake} {record : Record} {e : TlsError} (hst : h.state = .finishWithError e)
    (hw : handleClientFinish record h = (.ok (), h')) : h'.state = .finishWithError e ∧ h'.stream = h.stream := by
  unfold handleClientFinish at hw
  slift hw with ⟨hs, e1, hw⟩
  rw [Step.bind_get] at hw
  split_ifs at hw with hty
  · rw [hst] at hw
    simp only [] at hw
    unfold updateTshash at hw
    sbind hw with ⟨y, h1, e2, hw⟩
    have hh : h1 = h := by
      unfold getTshash at e2
      exact (Prod.mk.inj e2).2.symm
    subst hh
    have hw := Step.modify_ok.1 hw
    subst hw
    exact ⟨hst, rfl⟩
  sbind hw with ⟨pp, h1, e2, hw⟩
  sbind hw with ⟨y, h2, e5, hw⟩
  slift hw with ⟨vd, e6, hw⟩
  split_ifs at hw with hvd
  · exact absurd hw Step.throw_ok
  slift hw with ⟨p', e7, hw⟩
  sbind hw with ⟨u, h3, e8, hw⟩
  sbind hw with ⟨u, h4, e9, hw⟩
  rw [hst] at hw
  exact absurd hw Step.throw_ok


/-! ### The invariant -/

structure Core (env : ServerEnv) (reads : List Bytes) (w0 : Bytes) (r : Exchange) (context : Option Bytes) (written : Bytes) : Prop where
  isRec : Tls13.IsRecord 22#8 r.ch r.chRec
  ok : r.x.Ok
  hellos : r.x.hellos.length < 2 ^ 20
  answered : HelloAnswered env reads r.x r.ch r.sh r.ccs
  flight : ServerFlight env r.x context r.flight
  len : r.flight.flatten.length < 2 ^ 26
  sent : Tls13.Sent (aead r.x.c) (r.x.sess.key .server) (r.x.sess.iv .server) 0 r.flight r.swire
  out : written = w0 ++ (Tls13.plainRecord 22#8 r.sh ++ r.ccs ++ r.swire)
  short : r.ch.length ≤ 4096

/-- What holds between two records, by state. `recv`: the bytes processed so far, `w0`: what had been written before. -/
def Inv (env : ServerEnv) (reads : List Bytes) (w0 recv : Bytes) (h : ServerHandshake) : Prop :=
  match h.state with
  | .clientHello => recv = [] ∧ (h.rng = .urandom reads ∨ ¬ Urandom h.rng) ∧ h.stream.protection = none ∧ h.certificateRequestContext = none ∧
      h.tshashClienthelloServerfinished = none ∧ out h.stream = w0 ∧ h.keylog = none ∧ h.logged = []
  | .clientCertificate => ∃ r p, Core env reads w0 r h.certificateRequestContext (out h.stream) ∧ r.Received [] recv ∧ env.config.clientCertCa.isSome ∧
      h.stream.protection = some p ∧ HsProt r.x false p r.flight.length 0 ∧ h.tshash = some (ts r.x.t r.transcript) ∧
      Logs env.config.keylog r.x h.keylog h.logged
  | .clientCertificateVerify => ∃ r p m1 cert, Core env reads w0 r h.certificateRequestContext (out h.stream) ∧ r.Received [m1] recv ∧ m1.length < 2 ^ 16 ∧
      Presented env h.certificateRequestContext m1 cert ∧ h.clientCert = some cert ∧
      h.stream.protection = some p ∧ HsProt r.x false p r.flight.length 1 ∧ h.tshash = some (ts r.x.t (r.transcript ++ m1)) ∧
      h.tshashClienthelloServerfinished = some (ts r.x.t r.transcript) ∧ Logs env.config.keylog r.x h.keylog h.logged
  | .clientFinished => ∃ r p auth, Core env reads w0 r h.certificateRequestContext (out h.stream) ∧ r.Received auth recv ∧ auth.flatten.length < 2 ^ 18 ∧
      auth.length ≤ 2 ∧ ClientAuth env r.x h.certificateRequestContext r.transcript auth ∧
      h.stream.protection = some p ∧ HsProt r.x false p r.flight.length auth.length ∧ h.tshash = some (ts r.x.t (r.transcript ++ auth.flatten)) ∧
      (h.tshashClienthelloServerfinished = some (ts r.x.t r.transcript) ∨ h.tshashClienthelloServerfinished = none ∧ auth = []) ∧
      Logs env.config.keylog r.x h.keylog h.logged
  | .finishWithError _ => True
  | .ready => ∃ r p auth fin rest recv' tail, Core env reads w0 r h.certificateRequestContext (out h.stream) ∧ recv = recv' ++ tail ∧
      r.Received (auth ++ [fin]) recv' ∧ Tls13.RecordsWithout 21#8 tail ∧ ClientAuth env r.x h.certificateRequestContext r.transcript auth ∧
      fin = r.x.sess.finished .client (r.transcript ++ auth.flatten) ++ rest ∧ h.stream.protection = some p ∧
      wKey p = r.x.appKey r.transcript .server ∧ rKey p = r.x.appKey r.transcript .client ∧ p.cipher = r.x.c ∧ p.isClient = false ∧ p.keySchedule = r.x.ks ∧
      auth.flatten.length < 2 ^ 18 ∧ h.logged = hsLog env.config.keylog r.x ++ appLog env.config.keylog r.x r.transcript

theorem received_ccs {r : Exchange} {l : List Bytes} {recv w c : Bytes} (h : r.Received l recv) (hr : Tls13.IsRecord 20#8 c w) : r.Received l (recv ++ w) := by
  obtain ⟨wire, rfl, h⟩ := h
  refine ⟨wire ++ w, by simp, ?_⟩
  have := carried_append _ _ _ h (ms' := []) (w' := w ++ []) (.ccs _ _ _ _ _ hr (.nil _))
  simpa using this

theorem received_cons {r : Exchange} {l : List Bytes} {recv w c : Bytes} (h : r.Received l recv)
    (hr : Tls13.Carries (aead r.x.c) (r.x.sess.key .client) (r.x.sess.iv .client) l.length 22#8 c w) (ho : Tls13.OtherRecord w) :
    r.Received (l ++ [c]) (recv ++ w) := by
  obtain ⟨wire, rfl, h⟩ := h
  refine ⟨wire ++ w, by simp, ?_⟩
  have := carried_append _ _ _ h (ms' := [c]) (w' := w ++ []) (.cons _ _ _ _ _ (by rw [Nat.zero_add]; exact hr) ho (.nil _))
  simpa using this

theorem tail_record {t : RecordType} {c w tail : Bytes} (h : Tls13.RecordsWithout 21#8 tail) (ht : t ≠ .alert) (hr : Tls13.IsRecord t.code c w) :
    Tls13.RecordsWithout 21#8 (tail ++ w) := by
  have := records_append h (w' := w ++ []) (.cons t.code c w [] (by cases t <;> first | (exact absurd rfl ht) | decide) hr .nil)
  simpa using this

/-- One step for a protected record. -/
theorem encrypted_step {env : ServerEnv} {h h' : ServerHandshake} {record : Record} (hw : handleEncryptedRecord env record h = (.ok (), h')) :
    ∃ content h1, decryptRecord record h = (.ok (.handshake, content), h1) ∧ (match h1.state with
      | .clientCertificate => handleClientCertificate env (Record.new .handshake content)
      | .clientCertificateVerify => handleClientCertificateVerify (Record.new .handshake content)
      | .clientFinished => handleClientFinish (Record.new .handshake content)
      | .finishWithError _ => handleClientFinish (Record.new .handshake content)
      | _ => pure ()) h1 = (.ok (), h') := by
  unfold handleEncryptedRecord at hw
  sbind hw with ⟨⟨t, content⟩, h1, e1, hw⟩
  simp only [] at hw
  rw [Step.bind_get] at hw
  by_cases hc : (Record.new t content).contentType ≠ .handshake ∨ (env.config.clientCertCa.isSome ∧ h1.certificateRequestContext.isNone)
  · rw [if_pos hc] at hw
    split_ifs at hw with ha
    · slift hw with ⟨c, e2, hw⟩
      exact absurd hw Step.throw_ok
    · exact absurd hw Step.throw_ok
  · rw [if_neg hc] at hw
    have ht : t = .handshake := by
      by_contra hne
      exact hc (.inl hne)
    subst ht
    exact ⟨content, h1, e1, hw⟩


theorem decrypt_frame {h h' : ServerHandshake} {record : Record} {r : RecordType × Bytes} (hw : decryptRecord record h = (.ok r, h')) :
    ∃ p', h' = { h with stream := h.stream.setProtection (some p') } := by
  unfold decryptRecord at hw
  sbind hw with ⟨pp, h1, e1, hw⟩
  have e3 : h = h1 := (Prod.mk.inj e1).2
  subst e3
  rcases hd : pp.decrypt record with ⟨r, p'⟩
  simp only [hd] at hw
  exact ⟨p', (Prod.mk.inj hw).2.symm⟩

theorem auth_of_ca {env : ServerEnv} {x : Params} {c : Option Bytes} {m m1 m2 : Bytes} {cert : Certificate} (h1 : Presented env c m1 cert)
    (h2 : Possessed x (m ++ m1) m2 cert) : ClientAuth env x c m [m1, m2] := by
  obtain ⟨ca, _, _, _, _, hca, _⟩ := id h1
  unfold ClientAuth
  rw [hca]
  exact ⟨m1, m2, cert, rfl, h1, h2⟩

/-- Every record the server takes without an error keeps the invariant. -/
theorem record_inv {env : ServerEnv} {reads : List Bytes} {w0 recv buf : Bytes} {n : Nat} {record : Record} {h h' : ServerHandshake}
    (hcl : env.config.cert.raw.length < 2 ^ 24) (hr : Record.fromRaw buf = .ok (n, record)) (hbuf : buf.length ≤ 4096)
    (hi : Inv env reads w0 recv h) (hw : handleRecord env record h = (.ok (), h')) :
    Inv env reads w0 (recv ++ buf.take n) h' ∧ h'.stream.stream.incoming = h.stream.stream.incoming := by
  obtain ⟨hrec, _, _, _, _, hn5, hnl⟩ := fromRaw_isRecord hr
  have hfl : record.fraqment.length ≤ 4096 := by
    obtain ⟨v1, v2, hl, he⟩ := hrec
    have := congrArg List.length he
    simp only [List.length_append, List.length_take, beBytes_length, List.length_cons, List.length_nil] at this
    omega
  unfold handleRecord at hw
  rw [Step.bind_get] at hw
  by_cases hccs : record.contentType = .changeCipherSpec
  · -- change_cipher_spec
    rw [hccs] at hw
    simp only [] at hw
    split_ifs at hw with hst
    · exact absurd hw Step.throw_ok
    obtain ⟨_, rfl⟩ := Step.pure_ok.1 hw
    rw [hccs] at hrec
    refine ⟨?_, rfl⟩
    unfold Inv at hi ⊢
    cases hs : h'.state with
    | clientHello => exact absurd hs hst
    | clientCertificate =>
      simp only [hs] at hi ⊢
      obtain ⟨r, p, h1, h2, h3⟩ := hi
      exact ⟨r, p, h1, received_ccs h2 hrec, h3⟩
    | clientCertificateVerify =>
      simp only [hs] at hi ⊢
      obtain ⟨r, p, m1, cert, h1, h2, h3⟩ := hi
      exact ⟨r, p, m1, cert, h1, received_ccs h2 hrec, h3⟩
    | clientFinished =>
      simp only [hs] at hi ⊢
      obtain ⟨r, p, auth, h1, h2, h3⟩ := hi
      exact ⟨r, p, auth, h1, received_ccs h2 hrec, h3⟩
    | finishWithError e => trivial
    | ready =>
      simp only [hs] at hi ⊢
      obtain ⟨r, p, auth, fin, rest, recv', tail, h1, h2, h3, h4, h5⟩ := hi
      exact ⟨r, p, auth, fin, rest, recv', tail ++ buf.take n, h1, by rw [h2, List.append_assoc], h3, tail_record (t := .changeCipherSpec) h4 (by decide) hrec, h5⟩
  by_cases hal : record.contentType = .alert
  · rw [hal] at hw
    simp only [] at hw
    slift hw with ⟨c, e2, hw⟩
    exact absurd hw Step.throw_ok
  have hw' : ((match h.state with
    | .clientHello =>
      if record.contentType ≠ .handshake then .throw .unexpectedMessage else handleClientHello env record
    | .ready => pure ()
    | _ => handleEncryptedRecord env record) : M Unit) h = (.ok (), h') := by
    revert hw
    cases hct : record.contentType <;> first | exact absurd hct hccs | exact absurd hct hal | exact id
  clear hw
  unfold Inv at hi
  cases hs : h.state with
  | clientHello =>
    simp only [hs] at hi hw'
    obtain ⟨rfl, i1, i2, i3, i4, i5, i6, i7⟩ := hi
    split_ifs at hw' with hct
    · exact absurd hw' Step.throw_ok
    have hct : record.contentType = .handshake := by simpa using hct
    obtain ⟨x, sh, ccs, wire, flight, p, j1, j2, j3, j4, j5, j6, j7, j8, j9, j10, j11, j12, j13, j14, j15⟩ := hello_ok hw' i1 hcl hfl i2 i3
    rw [hct] at hrec
    refine ⟨?_, j10⟩
    have hcore : Core env reads w0 ⟨x, buf.take n, record.fraqment, sh, ccs, wire, flight⟩ h'.certificateRequestContext (out h'.stream) :=
      ⟨hrec, j1, j2, j3, j4, j5, j6, by rw [j7, i5], hfl⟩
    have hrcv : Exchange.Received ⟨x, buf.take n, record.fraqment, sh, ccs, wire, flight⟩ [] ([] ++ buf.take n) := ⟨[], by simp, .nil _⟩
    unfold Inv
    by_cases hca : env.config.clientCertCa.isSome
    · rw [if_pos hca] at j11
      simp only [j11]
      exact ⟨_, p, hcore, hrcv, hca, j8, j9, j12, j15 i6 i7⟩
    · rw [if_neg hca] at j11
      simp only [j11]
      refine ⟨_, p, [], hcore, hrcv, by simp, by simp, ?_, j8, j9, by rw [j12]; simp [Exchange.transcript], .inr ⟨by rw [j14, i4], rfl⟩, j15 i6 i7⟩
      unfold ClientAuth
      rw [Option.not_isSome_iff_eq_none.1 hca]
  | ready =>
    simp only [hs] at hi hw'
    obtain ⟨_, rfl⟩ := Step.pure_ok.1 hw'
    obtain ⟨r, p, auth, fin, rest, recv', tail, h1, h2, h3, h4, h5⟩ := hi
    refine ⟨?_, rfl⟩
    unfold Inv
    simp only [hs]
    exact ⟨r, p, auth, fin, rest, recv', tail ++ buf.take n, h1, by rw [h2, List.append_assoc], h3, tail_record h4 hal hrec, h5⟩
  | finishWithError e =>
    simp only [hs] at hw'
    obtain ⟨content, h1, e1, hw⟩ := encrypted_step hw'
    obtain ⟨p', rfl⟩ := decrypt_frame e1
    simp only [hs] at hw
    obtain ⟨g1, g2⟩ := finish_err (h := { h with stream := h.stream.setProtection (some p'), state := .finishWithError e }) rfl hw
    refine ⟨?_, by rw [g2]; rfl⟩
    unfold Inv
    rw [g1]
    trivial
  | clientCertificate =>
    simp only [hs] at hi hw'
    obtain ⟨r, p, i1, i2, i3, i4, i5, i6, i7⟩ := hi
    obtain ⟨content, h1, e1, hw⟩ := encrypted_step hw'
    obtain ⟨p', rfl, g1, g2, g3⟩ := decryptRecord_ok i1.ok e1 i4 i5 (by omega) hr (by decide)
    simp only [hs] at hw
    have hcs : ∃ context, h.certificateRequestContext = some context := by
      obtain ⟨request, cv, hreq, _⟩ := i1.flight
      unfold Requested at hreq
      cases hca : env.config.clientCertCa with
      | none => rw [hca] at i3; cases i3
      | some ca => rw [hca] at hreq; obtain ⟨c, _, hc, _⟩ := hreq; exact ⟨c, hc⟩
    obtain ⟨context, hcs⟩ := hcs
    rcases certificate_ok (t := r.x.t) (m := r.transcript) (context := context) hw i6 hcs with ⟨e, k1, k2⟩ | ⟨cert, k1, rfl⟩
    · refine ⟨?_, by rw [k2]; rfl⟩
      unfold Inv
      rw [k1]
      trivial
    · refine ⟨?_, rfl⟩
      unfold Inv
      simp only []
      exact ⟨r, p', content, cert, i1, received_cons i2 g3 (otherRecord hccs hal hrec), g2, by rw [hcs]; exact k1, rfl, rfl, g1, rfl, rfl, i7⟩
  | clientCertificateVerify =>
    simp only [hs] at hi hw'
    obtain ⟨r, p, m1, cert, i1, i2, i3, i4, i5, i6, i7, i8, i9, i10⟩ := hi
    obtain ⟨content, h1, e1, hw⟩ := encrypted_step hw'
    obtain ⟨p', rfl, g1, g2, g3⟩ := decryptRecord_ok i1.ok e1 i6 i7 (by omega) hr (by decide)
    simp only [hs] at hw
    rcases certificateVerify_ok (x := r.x) (m := r.transcript ++ m1) (cert := cert) hw i8 i5 with ⟨e, k1, k2⟩ | ⟨k1, rfl⟩
    · refine ⟨?_, by rw [k2]; rfl⟩
      unfold Inv
      rw [k1]
      trivial
    · refine ⟨?_, rfl⟩
      unfold Inv
      simp only []
      refine ⟨r, p', [m1, content], i1, received_cons i2 g3 (otherRecord hccs hal hrec), ?_, by simp, auth_of_ca i4 k1, rfl, g1, ?_, .inl i9, i10⟩
      · simp only [List.flatten_cons, List.flatten_nil, List.length_append, List.append_nil]
        omega
      · simp [Record.new]
  | clientFinished =>
    simp only [hs] at hi hw'
    obtain ⟨r, p, auth, i1, i2, i3, i4, i5, i6, i7, i8, i9, i10⟩ := hi
    obtain ⟨content, h1, e1, hw⟩ := encrypted_step hw'
    obtain ⟨p', rfl, g1, g2, g3⟩ := decryptRecord_ok i1.ok e1 i6 i7 (by omega) hr (by decide)
    simp only [hs] at hw
    have hT : r.transcript.length < 2 ^ 27 := by
      have := i1.hellos
      have := i1.len
      unfold Exchange.transcript
      rw [List.length_append]
      omega
    obtain ⟨rest, q, l, k1, k2, k3, k4, k5, k6, k7, rfl⟩ := finish_ok (x := r.x) (p := p') (m0 := r.transcript) (m := r.transcript ++ auth.flatten) i1.ok hw rfl rfl g1 i8
      (i9.imp id fun hh => ⟨hh.1, by rw [hh.2]; simp⟩) (by omega) (by rw [List.length_append]; omega)
    refine ⟨?_, rfl⟩
    unfold Inv
    simp only []
    exact ⟨r, q, auth, content, rest, recv ++ buf.take n, [], i1, by simp, received_cons i2 g3 (otherRecord hccs hal hrec), .nil, i5, k1, rfl, k2, k3, k4, k5, k6, i3, k7 _ i10⟩


theorem records_inv {env : ServerEnv} {reads : List Bytes} {w0 : Bytes} (hcl : env.config.cert.raw.length < 2 ^ 24) :
    ∀ (fuel : Nat) (rest recv : Bytes) (h h' : ServerHandshake), rest.length ≤ 4096 → Inv env reads w0 recv h →
      recordsLoop env fuel rest h = (.ok (), h') → Inv env reads w0 (recv ++ rest) h' ∧ h'.stream.stream.incoming = h.stream.stream.incoming
  | 0, rest, recv, h, h', _, hi, hw => by
    unfold recordsLoop at hw
    split_ifs at hw with hr
    · obtain ⟨_, rfl⟩ := Step.pure_ok.1 hw
      rw [hr, List.append_nil]
      exact ⟨hi, rfl⟩
    · exact absurd hw Step.crash_ok
  | fuel + 1, rest, recv, h, h', hl, hi, hw => by
    unfold recordsLoop at hw
    split_ifs at hw with hr
    · obtain ⟨_, rfl⟩ := Step.pure_ok.1 hw
      rw [hr, List.append_nil]
      exact ⟨hi, rfl⟩
    slift hw with ⟨⟨n, record⟩, e1, hw⟩
    simp only [] at hw
    sbind hw with ⟨u, h1, e2, hw⟩
    obtain ⟨g1, g2⟩ := record_inv hcl e1 hl hi e2
    obtain ⟨g3, g4⟩ := records_inv hcl fuel (rest.drop n) (recv ++ rest.take n) h1 h' (by simp; omega) g1 hw
    rw [List.append_assoc, List.take_append_drop] at g3
    exact ⟨g3, by rw [g4, g2]⟩

theorem inv_stream {env : ServerEnv} {reads : List Bytes} {w0 recv : Bytes} {h : ServerHandshake} (s : TlsStream) (ho : out s = out h.stream)
    (hp : s.protection = h.stream.protection) (hi : Inv env reads w0 recv h) : Inv env reads w0 recv { h with stream := s } := by
  unfold Inv at hi ⊢
  simp only []
  rw [ho, hp]
  exact hi

theorem onStream_ok {α : Type} {f : TlsStream → Res TlsError α × TlsStream} {h h' : ServerHandshake} {a : α} (hw : onStream f h = (.ok a, h')) :
    ∃ s, f h.stream = (.ok a, s) ∧ h' = { h with stream := s } := by
  unfold onStream at hw
  rcases hf : f h.stream with ⟨r, s⟩
  rw [hf] at hw
  simp only [] at hw
  have h1 := (Prod.mk.inj hw).1
  subst h1
  exact ⟨s, rfl, (Prod.mk.inj hw).2.symm⟩

theorem read_inv {env : ServerEnv} {reads : List Bytes} {w0 : Bytes} (hcl : env.config.cert.raw.length < 2 ^ 24) :
    ∀ (fuel : Nat) (recv : Bytes) (h h' : ServerHandshake), Inv env reads w0 recv h → h.stream.buffer = [] →
      readLoop env fuel h = (.ok (), h') → h'.state = .ready ∧ h'.stream.buffer = [] ∧
        ∃ recv', Inv env reads w0 recv' h' ∧ recv ++ h.stream.stream.incoming.flatten = recv' ++ h'.stream.stream.incoming.flatten
  | 0, _, _, _, _, _, hw => absurd hw Step.crash_ok
  | fuel + 1, recv, h, h', hi, hb, hw => by
    unfold readLoop at hw
    rw [Step.bind_get] at hw
    split_ifs at hw with hs
    · obtain ⟨_, rfl⟩ := Step.pure_ok.1 hw
      exact ⟨hs, hb, recv, hi, rfl⟩
    sbind hw with ⟨rx, h1, e1, hw⟩
    obtain ⟨s1, e1', rfl⟩ := onStream_ok e1
    obtain ⟨g1, g2, g3, g4, g5, g6⟩ := read_ok e1'
    sbind hw with ⟨u, h2, e2, hw⟩
    obtain ⟨i1, i2⟩ := records_inv (reads := reads) (w0 := w0) hcl rx.length rx recv _ h2 g2
      (inv_stream s1 (by unfold out; rw [g5, g6]) g4 hi) e2
    sbind hw with ⟨u, h3, e3, hw⟩
    obtain ⟨s3, e3', rfl⟩ := onStream_ok e3
    obtain ⟨j1, j2, j3, j4⟩ := flush_ok e3'
    obtain ⟨k1, k2, recv', k3, k4⟩ := read_inv hcl fuel (recv ++ rx) _ h' (inv_stream s3 j1 j3 i1) j2 hw
    refine ⟨k1, k2, recv', k3, ?_⟩
    rw [← k4, List.append_assoc]
    change _ = recv ++ (rx ++ s3.stream.incoming.flatten)
    rw [j4, i2]
    change _ = recv ++ (rx ++ s1.stream.incoming.flatten)
    rw [g1]

/-- A stream is handed out only in the state `ready`, with the invariant. -/
theorem accept_inv {env : ServerEnv} {reads : List Bytes} {sock : Socket} {s : TlsStream} {h : ServerHandshake}
    (hcl : env.config.cert.raw.length < 2 ^ 24) (hw : ServerConnection.accept env reads sock = (.ok s, h)) :
    s = h.stream ∧ h.state = .ready ∧ s.buffer = [] ∧ ∃ recv, Inv env reads sock.written recv h ∧ sock.incoming.flatten = recv ++ s.stream.incoming.flatten := by
  unfold ServerConnection.accept at hw
  rcases hd : doHandshakeWithError env (ServerHandshake.new env (TlsStream.new sock) reads) with ⟨r, h1⟩
  rw [hd] at hw
  cases r with
  | err e => cases hw
  | panic => cases hw
  | ok u =>
    simp only [] at hw
    have hs := Res.ok.inj (Prod.mk.inj hw).1
    have hh := (Prod.mk.inj hw).2
    subst hh
    unfold doHandshakeWithError at hd
    rcases hd2 : doHandshake env (ServerHandshake.new env (TlsStream.new sock) reads) with ⟨r, h2⟩
    rw [hd2] at hd
    cases r with
    | err e =>
      simp only [] at hd
      split_ifs at hd
      · sbind hd with ⟨v, h3, e3, hd⟩
        exact absurd hd Step.throw_ok
      · exact absurd hd Step.throw_ok
    | panic => cases hd
    | ok u =>
      simp only [] at hd
      have hh := (Prod.mk.inj hd).2
      subst hh
      unfold doHandshake at hd2
      obtain ⟨g1, g2, recv, g3, g4⟩ := read_inv (reads := reads) (w0 := sock.written) hcl _ [] _ h2 (by
        unfold Inv
        refine ⟨rfl, ?_, rfl, rfl, rfl, by simp [out, ServerHandshake.new, TlsStream.new], rfl, rfl⟩
        unfold ServerHandshake.new
        simp only []
        cases env.config.prngType with
        | simple => right; rintro ⟨r, hr⟩; cases hr
        | urandom => left; rfl) rfl hd2
      subst hs
      exact ⟨rfl, g1, g2, recv, g3, by rw [← g4]; rfl⟩


end ServerProof
end ATLS
