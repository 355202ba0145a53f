import Verif.Proof.Forward
import Verif.Proof.Ccs
import Verif.Props.Server
/-
The server's handshake with a conforming client goes through.
-/
namespace ATLS.FlowProof
open ATLS ATLS.Model ATLS.Spec

/-- The body of CertificateVerify is computed whenever the key signs. -/
theorem cvBody_of (role : Tls13.Role) {nonces : List Int} {key : PrivateKey} {t : HashType} {m der : Bytes} {sig : Signature} (hm : m.length < 2 ^ 53)
    (h1 : Ecdsa.sign nonces key (Sha2.sha256 (Tls13.verifyContent role ((rfcHash t).H m))) = .ok (some sig)) (h2 : sig.toDer = .ok der) :
    Certificate.getCertificateVerifyForHandshake nonces key (ts t m) (roleLabel role) = .ok (Tls13.certificateVerifyMessage 0x0403 der) := by
  have hc := CertProof.content_eq (ts t m) role
  have hl := CertProof.finalize_le (ts t m)
  rw [ts_finalize t m hm] at hc hl
  have hc' : Certificate.verifyContent (ts t m) (roleLabel role) = Tls13.verifyContent role ((rfcHash t).H m) := hc
  unfold Certificate.getCertificateVerifyForHandshake
  simp only []
  rw [hc', (C06_sha256_fips _ (by
    simp only [Tls13.verifyContent, List.length_append, List.length_replicate, CertProof.context_length, List.length_singleton]
    omega)).1, h1]
  simp only [Res.mapErr, Res.ok_bind, Res.unwrap, h2]
  unfold Tls13.certificateVerifyMessage
  rw [RecProof.beBytes2, RecProof.beBytes2, Nat.shiftRight_eq_div_pow]
  rfl

end ATLS.FlowProof

namespace ATLS.ServerProof
open ATLS ATLS.Model ATLS.Spec ServerHandshake FlowProof RecProof KsProof

theorem write_hs_of {x : Params} (hx : x.Ok) {h : ServerHandshake} {p : RecordPayloadProtection} {nw nr : Nat} {m : Bytes} (hc : Calm h.stream)
    (hp : h.stream.protection = some p) (hk : HsProt x false p nw nr) (hn : nw < 2 ^ 63) (hm : m.length + 64 ≤ 2 ^ 24) :
    ∃ wire p' s, writeRecord .handshake m h = (.ok (), { h with stream := s }) ∧ Calm s ∧
      Tls13.Sent (aead x.c) (x.sess.key .server) (x.sess.iv .server) nw [m] wire ∧
      out s = out h.stream ++ wire ∧ s.protection = some p' ∧ HsProt x false p' (nw + 1) nr := by
  obtain ⟨s, h1, h2⟩ := write_prot_calm hx hc hp hk hn .handshake hm
  have hw : writeRecord .handshake m h = (.ok (), { h with stream := s }) := by
    unfold writeRecord onStream
    simp only [h1]
  obtain ⟨wire, p', s', g1, g2, g3, g4, g5, _⟩ := write_hs hw hp hk hn
  have : s = s' := congrArg ServerHandshake.stream g1
  subst this
  exact ⟨wire, p', s, hw, h2, g2, g3, g4, g5⟩

theorem write_pl_of {h : ServerHandshake} (t : RecordType) (m : Bytes) (hc : Calm h.stream) (hp : h.stream.protection = none) :
    ∃ s, writeRecord t m h = (.ok (), { h with stream := s }) ∧ Calm s ∧ out s = out h.stream ++ Tls13.plainRecord t.code m ∧ s.protection = none := by
  obtain ⟨s, h1, h2⟩ := write_plain_calm hc hp t m
  have hw : writeRecord t m h = (.ok (), { h with stream := s }) := by
    unfold writeRecord onStream
    simp only [h1]
  obtain ⟨s', g1, g2, g3, _⟩ := write_pl hw hp
  have : s = s' := congrArg ServerHandshake.stream g1
  subst this
  rw [new_bytes] at g2
  exact ⟨s, hw, h2, g2, g3⟩

theorem sendRequest_of {env : ServerEnv} {x : Params} (hx : x.Ok) {h : ServerHandshake} {p : RecordPayloadProtection} {nw nr : Nat} {m : Bytes}
    (hcalm : Calm h.stream) (hp : h.stream.protection = some p) (hk : HsProt x false p nw nr) (hn : nw < 2 ^ 62)
    (hc : h.certificateRequestContext = none) {context : Option Bytes} {request : List Bytes} (hd : Drawn env h.rng context) (hr : Requested env context request) :
    ∃ wire p' s rng, sendCertificateRequest env (ts x.t m) h = (.ok (ts x.t (m ++ request.flatten)),
        { h with stream := s, rng := rng, certificateRequestContext := context }) ∧ Calm s ∧
      Tls13.Sent (aead x.c) (x.sess.key .server) (x.sess.iv .server) nw request wire ∧
      out s = out h.stream ++ wire ∧ s.protection = some p' ∧ HsProt x false p' (nw + request.length) nr ∧ request.length ≤ 1 ∧ request.flatten.length ≤ 100 := by
  unfold sendCertificateRequest
  unfold Requested at hr
  unfold Drawn at hd
  cases hca : env.config.clientCertCa with
  | none =>
    rw [hca] at hr
    obtain ⟨rfl, rfl⟩ := hr
    refine ⟨[], p, h.stream, h.rng, ?_, hcalm, rfl, by simp, hp, hk, by simp, by simp⟩
    rw [← hc, List.flatten_nil, List.append_nil]
    rfl
  | some ca =>
    rw [hca] at hr hd
    obtain ⟨c, hl, rfl, rfl⟩ := hr
    obtain ⟨c', rng', hb, he⟩ := hd
    have := Option.some.inj he
    subst this
    simp only []
    rw [Step.bind_get, Step.bind_lift_ok hb]
    simp only []
    rw [Step.bind_modify, Step.bind_lift_ok (request_bytes c)]
    have hlen : (Tls13.handshakeMessage 13#8 (Tls13.certificateRequest c [1027])).length ≤ 100 := by
      simp [Tls13.handshakeMessage, Tls13.certificateRequest, beBytes_length, hl]
    obtain ⟨wire, p', s, g1, g2, g3, g4, g5, g6⟩ := write_hs_of (m := Tls13.handshakeMessage 13#8 (Tls13.certificateRequest c [1027])) hx
      (h := { h with rng := rng', certificateRequestContext := some c }) hcalm hp hk (by omega) (by omega)
    rw [toBytes_eq]
    refine ⟨wire, p', s, rng', ?_, g2, g3, g4, g5, g6, by simp, by simpa using hlen⟩
    refine (Step.bind_of_ok g1).trans ?_
    rw [ts_update, Step.pure_eq]
    simp [HandshakeType.code]

theorem sendFlight_of {env : ServerEnv} {x : Params} (hx : x.Ok) {h : ServerHandshake} {p : RecordPayloadProtection}
    (hcalm : Calm h.stream) (hl : x.hellos.length < 2 ^ 20) (hcl : env.config.cert.raw.length + 200 ≤ 2 ^ 24)
    (hp : h.stream.protection = some p) (hk : HsProt x false p 0 0) (hc : h.certificateRequestContext = none)
    {context : Option Bytes} {flight : List Bytes} (hd : Drawn env h.rng context) (hf : ServerFlight env x context flight) :
    ∃ wire p' s rng, sendFlight env (ts x.t x.hellos) h = (.ok (), { h with
        stream := s, rng := rng, certificateRequestContext := context
        state := if env.config.clientCertCa.isSome then .clientCertificate else .clientFinished
        tshash := some (ts x.t (x.hellos ++ flight.flatten)) }) ∧ Calm s ∧ flight.flatten.length < 2 ^ 26 ∧
      Tls13.Sent (aead x.c) (x.sess.key .server) (x.sess.iv .server) 0 flight wire ∧
      out s = out h.stream ++ wire ∧ s.protection = some p' ∧ HsProt x false p' flight.length 0 := by
  obtain ⟨request, cv, hreq, ⟨sig, der, hsig, hder, hcv⟩, rfl⟩ := hf
  have hcm : Handshake.toBytes .certificate (env.config.cert.getCertificateForHandshake [0#8]) = certificateMsg env.config.cert := by
    rw [toBytes_eq]
    exact congrArg (Tls13.handshakeMessage 11#8) (C70_built env.config.cert [])
  have hee : Handshake.toBytes .encryptedExtensions (extensionsAsBytes []) = encryptedExtensions := by
    rw [toBytes_eq]; rfl
  have heel : encryptedExtensions.length = 6 := by decide
  have hcml : (certificateMsg env.config.cert).length ≤ env.config.cert.raw.length + 100 := by
    simp only [certificateMsg, Tls13.handshakeMessage, Tls13.certificateMessage, List.length_append, beBytes_length, List.length_cons, List.length_nil,
      List.map_cons, List.map_nil, List.flatten_cons, List.flatten_nil, Tls13.certificateEntry]
    omega
  unfold sendFlight
  simp only [hcm, hee]
  obtain ⟨w1, p1, s1, a1, a2, a3, a4, a5, a6⟩ := write_hs_of hx (m := encryptedExtensions) hcalm hp hk (by omega) (by omega)
  obtain ⟨w2, p2, s2, rng, b1, b2, b3, b4, b5, b6, b7, b8⟩ := sendRequest_of hx (h := { h with stream := s1 }) (m := x.hellos ++ encryptedExtensions) a2 a5 a6
    (by omega) hc hd hreq
  obtain ⟨w3, p3, s3, c1, c2, c3, c4, c5, c6⟩ := write_hs_of hx (m := certificateMsg env.config.cert)
    (h := { h with stream := s2, rng := rng, certificateRequestContext := context }) b2 b5 b6 (by omega) (by omega)
  have hT' : x.hellos ++ encryptedExtensions ++ request.flatten ++ certificateMsg env.config.cert =
      x.hellos ++ ([encryptedExtensions] ++ request ++ [certificateMsg env.config.cert]).flatten := by
    simp [List.append_assoc]
  have hT'l : (x.hellos ++ ([encryptedExtensions] ++ request ++ [certificateMsg env.config.cert]).flatten).length < 2 ^ 53 := by
    rw [← hT']
    simp only [List.length_append, heel]
    omega
  have hbody := cvBody_of .server hT'l hsig hder
  obtain ⟨_, der', _, _, q1, q2⟩ := cvBody_inv .server hT'l hbody
  have hcvl : cv.length ≤ 200 := by
    rw [hcv, q1]
    simp only [Tls13.handshakeMessage, Tls13.certificateVerifyMessage, List.length_append, beBytes_length, List.length_cons, List.length_nil]
    omega
  have hcv' : cv = Handshake.toBytes .certificateVerify (Tls13.certificateVerifyMessage 1027 der) := by rw [toBytes_eq]; exact hcv
  obtain ⟨w4, p4, s4, d1, d2, d3, d4, d5, d6⟩ := write_hs_of hx (m := cv)
    (h := { h with stream := s3, rng := rng, certificateRequestContext := context }) c2 c5 c6 (by omega) (by omega)
  have hT : x.hellos ++ ([encryptedExtensions] ++ request ++ [certificateMsg env.config.cert]).flatten ++ cv =
      x.hellos ++ ([encryptedExtensions] ++ request ++ [certificateMsg env.config.cert, cv]).flatten := by
    simp [List.append_assoc]
  obtain ⟨M, hM⟩ : ∃ M, M = x.hellos ++ ([encryptedExtensions] ++ request ++ [certificateMsg env.config.cert, cv]).flatten := ⟨_, rfl⟩
  have hMl : M.length < 2 ^ 53 := by
    rw [hM, ← hT, ← hT']
    simp only [List.length_append, heel]
    omega
  have hfin := finished_le x .server M hMl
  have hks : p4.keySchedule.serverHandshakeTrafficSecret = ⟨x.t, x.sess.secret .server⟩ := by rw [d6.ks]; rfl
  have hfm := finished_message x .server M hMl
  rw [← hks] at hfm
  obtain ⟨w5, p5, s5, f1, f2, f3, f4, f5, f6⟩ := write_hs_of hx (m := x.sess.finished .server M)
    (h := { h with stream := s4, rng := rng, certificateRequestContext := context }) d2 d5 d6 (by omega) (by omega)
  have hgp : getProtection { h with stream := s4, rng := rng, certificateRequestContext := context } =
      (.ok p4, { h with stream := s4, rng := rng, certificateRequestContext := context }) := by
    unfold getProtection
    simp only [d5, Res.unwrap]
  refine ⟨w1 ++ w2 ++ w3 ++ w4 ++ w5, p5, s5, rng, ?_, f2, ?_, ?_, ?_, f5, ?_⟩
  · refine (Step.bind_of_ok a1).trans ?_
    rw [ts_update]
    refine (Step.bind_of_ok b1).trans ?_
    refine (Step.bind_of_ok c1).trans ?_
    rw [ts_update, hT']
    refine (Step.bind_lift_ok hbody _ _).trans ?_
    rw [← hcv']
    refine (Step.bind_of_ok d1).trans ?_
    rw [ts_update, hT, ← hM]
    refine (Step.bind_of_ok hgp).trans ?_
    refine (Step.bind_lift_ok hfm _ _).trans ?_
    refine (Step.bind_of_ok f1).trans ?_
    rw [ts_update]
    have : M ++ x.sess.finished .server M = x.hellos ++ ([encryptedExtensions] ++ request ++ [certificateMsg env.config.cert, cv, x.sess.finished .server M]).flatten := by
      generalize x.sess.finished .server M = F
      rw [hM]
      simp [List.append_assoc]
    rw [this]
    rfl
  · have := hMl
    rw [← hM]
    simp only [List.flatten_append, List.flatten_cons, List.flatten_nil, List.length_append, List.append_nil, heel]
    omega
  · rw [← hM]
    have t1 := sent_append _ _ _ _ _ _ _ _ a3 b3
    have t2 := sent_append _ _ _ _ _ 0 _ _ t1 (by
      rw [show 0 + ([encryptedExtensions] ++ request).length = 0 + 1 + request.length by simp; omega]; exact c3)
    have t3 := sent_append _ _ _ _ _ 0 _ _ t2 (by
      rw [show 0 + ([encryptedExtensions] ++ request ++ [certificateMsg env.config.cert]).length = 0 + 1 + request.length + 1 by simp; omega]; exact d3)
    have t4 := sent_append _ _ _ _ _ 0 _ _ t3 (by
      rw [show 0 + ([encryptedExtensions] ++ request ++ [certificateMsg env.config.cert] ++ [cv]).length = 0 + 1 + request.length + 1 + 1 by simp; omega]
      exact f3)
    simpa [List.append_assoc] using t4
  · rw [f4]
    change out s4 ++ w5 = _
    rw [d4]
    change out s3 ++ w4 ++ w5 = _
    rw [c4]
    change out s2 ++ w3 ++ w4 ++ w5 = _
    rw [b4]
    change out s1 ++ w2 ++ w3 ++ w4 ++ w5 = _
    rw [a4]
    simp only [List.append_assoc]
  · have : ([encryptedExtensions] ++ request ++ [certificateMsg env.config.cert, cv, x.sess.finished Tls13.Side.server
        (x.hellos ++ ([encryptedExtensions] ++ request ++ [certificateMsg env.config.cert, cv]).flatten)]).length = 0 + 1 + request.length + 1 + 1 + 1 := by
      simp; omega
    rw [this]
    exact f6

theorem log_of (env : ServerEnv) (p : Option RecordPayloadProtection) (r : Bytes) (h : ServerHandshake) :
    ∃ k l, logHandshakeSecrets env p r h = (.ok (), { h with keylog := k, logged := l }) := by
  unfold logHandshakeSecrets
  cases hk : env.config.keylog with
  | none => exact ⟨h.keylog, h.logged, rfl⟩
  | some f =>
    cases p with
    | none => exact ⟨h.keylog, h.logged, rfl⟩
    | some p => exact ⟨_, _, rfl⟩

/-- The ClientHello is answered with the whole flight. -/
theorem hello_of {env : ServerEnv} {reads : List Bytes} {h : ServerHandshake} {record : Record} {x : Params} {sh ccs : Bytes} {rng : Rng}
    {context : Option Bytes} {flight : List Bytes}
    (ha : HelloAnsweredBy env reads x record.fraqment sh ccs rng) (hd : Drawn env rng context) (hf : ServerFlight env x context flight)
    (hrng : h.rng = .urandom reads) (hcl : env.config.cert.raw.length + 200 ≤ 2 ^ 24) (hcalm : Calm h.stream)
    (hfl : record.fraqment.length ≤ 4096) (hp : h.stream.protection = none) (hc : h.certificateRequestContext = none) :
    ∃ (wire : Bytes) (p : RecordPayloadProtection) (h' : ServerHandshake), handleClientHello env record h = (.ok (), h') ∧ x.Ok ∧ x.hellos.length < 2 ^ 20 ∧
      Calm h'.stream ∧ flight.flatten.length < 2 ^ 26 ∧
      Tls13.Sent (aead x.c) (x.sess.key .server) (x.sess.iv .server) 0 flight wire ∧
      out h'.stream = out h.stream ++ (Tls13.plainRecord 22#8 sh ++ ccs ++ wire) ∧
      h'.stream.protection = some p ∧ HsProt x false p flight.length 0 ∧
      h'.state = (if env.config.clientCertCa.isSome then .clientCertificate else .clientFinished) ∧
      h'.tshash = some (ts x.t (x.hellos ++ flight.flatten)) ∧ h'.clientCert = h.clientCert ∧ h'.certificateRequestContext = context ∧
      h'.tshashClienthelloServerfinished = h.tshashClienthelloServerfinished := by
  obtain ⟨hs, hello, answer, pk, share, body, e1, hty, e2, e3, e5, hsh, e8, hg, hss, hccs, hcs, ht, hci, hhl⟩ := ha
  have hfr := (handshake_inv e1).2.2.1
  obtain ⟨body', shares, g1, g2, g3, _⟩ := C36_reachable hs.fraqment hello (.urandom reads) env.config.serverName answer pk rng (by omega) e2 e3
  rw [e5] at g1
  have g1 := Res.ok.inj g1
  subst g1
  have hshl : sh.length = body.length + 4 := by
    rw [hsh]; simp only [Tls13.handshakeMessage, List.length_append, beBytes_length, List.length_cons, List.length_nil]; omega
  have hxl : x.hellos.length < 2 ^ 20 := by rw [hhl]; simp only [List.length_append]; omega
  obtain ⟨hks, hel⟩ := fromHandshake_of (x := x) (by omega) hg hss
  have hx : x.Ok := ⟨hci, by omega⟩
  obtain ⟨p, hnew⟩ := new_of hx false
  have hprot := new_hsProt hx false hnew
  have hsh' : Handshake.toBytes .serverHello body = sh := by rw [toBytes_eq, hsh]; rfl
  obtain ⟨s1, a1, a2, a3, a4⟩ := write_pl_of (h := { h with rng := rng }) .handshake sh hcalm hp
  obtain ⟨s2, b1, b2, b3, b4⟩ : ∃ s2, sendChangeCipherSpec hello { h with rng := rng, stream := s1 } = (.ok (), { h with rng := rng, stream := s2 }) ∧ Calm s2 ∧
      out s2 = out s1 ++ ccs ∧ s2.protection = none := by
    unfold sendChangeCipherSpec
    by_cases hsid : hello.legacySessionIdEcho.isSome
    · obtain ⟨s2, c1, c2, c3, c4⟩ := write_pl_of (h := { h with rng := rng, stream := s1 }) .changeCipherSpec [1#8] a2 a4
      rw [if_pos hsid] at hccs ⊢
      exact ⟨s2, c1, c2, by rw [c3, hccs]; rfl, c4⟩
    · rw [if_neg hsid] at hccs ⊢
      exact ⟨s1, rfl, a2, by rw [hccs, List.append_nil], a4⟩
  obtain ⟨kl, lg, hlog⟩ := log_of env (some p) hello.random { h with rng := rng, stream := s2 }
  obtain ⟨wire, p', s', rng', f1, f2, f3, f4, f5, f6, f7⟩ := sendFlight_of hx (p := p)
    (h := { h with rng := rng, stream := s2.setProtection (some p), keylog := kl, logged := lg }) b2 hxl hcl rfl hprot hc hd hf
  refine ⟨wire, p', { h with
    rng := rng', stream := s', keylog := kl, logged := lg, certificateRequestContext := context
    state := if env.config.clientCertCa.isSome then .clientCertificate else .clientFinished
    tshash := some (ts x.t (x.hellos ++ flight.flatten)) }, ?_, hx, hxl, ?_, f3, f4, ?_, f6, f7, rfl, rfl, rfl, rfl, rfl⟩
  rotate_left
  · exact f2
  · rw [f5]
    change out s2 ++ wire = _
    rw [b3, a3]
    simp only [List.append_assoc]
    rfl
  unfold handleClientHello
  rw [Step.bind_lift_ok e1, if_neg (by simp [hty]), Step.bind_lift_ok e2, Step.bind_get, hrng, Step.bind_lift_ok e3]
  simp only []
  rw [Step.bind_modify, Step.bind_lift_ok (by rw [← hcs]; exact ht), Step.bind_lift_ok e5, ts_new, hsh', ts_update, ← hhl]
  refine (Step.bind_of_ok a1).trans ?_
  refine (Step.bind_of_ok b1).trans ?_
  refine (Step.bind_lift_ok (by rw [e8]; rfl) _ _).trans ?_
  refine (Step.bind_lift_ok hks _ _).trans ?_
  refine (Step.bind_lift_ok (by rw [← hcs]; exact hci) _ _).trans ?_
  refine (Step.bind_lift_ok (by rw [hnew]; rfl) _ _).trans ?_
  refine (Step.bind_of_ok hlog).trans ?_
  unfold setProtection
  rw [Step.bind_modify]
  exact f1

/-! ### The records of the client after its hello -/

theorem tshash_of {h : ServerHandshake} {t : TsHash} (ht : h.tshash = some t) : getTshash h = (.ok t, h) := by
  unfold getTshash
  rw [ht]
  rfl

theorem update_of {h : ServerHandshake} {t : TsHash} (ht : h.tshash = some t) (b : Bytes) :
    updateTshash b h = (.ok (), { h with tshash := some (t.update b) }) := by
  unfold updateTshash
  exact Step.bind_of_ok (tshash_of ht)

/-- A protected record is opened and its content handed to the handler of the state. -/
theorem encrypted_of {env : ServerEnv} {x : Params} (hx : x.Ok) {h : ServerHandshake} {p : RecordPayloadProtection} {nw nr : Nat} {content wire : Bytes}
    (hp : h.stream.protection = some p) (hk : HsProt x false p nw nr) (hn : nr < 2 ^ 63)
    (hw : Tls13.Protected (aead x.c) (x.sess.key .client) (x.sess.iv .client) nr 22#8 content wire)
    {st : ServerHsState} (hs : h.state = st) (hst : st ≠ .clientHello) (hst' : st ≠ .ready) (hca : ¬ (env.config.clientCertCa.isSome ∧ h.certificateRequestContext.isNone)) :
    ∃ r p', Record.fromRaw wire = .ok (wire.length, r) ∧ HsProt x false p' nw (nr + 1) ∧
      handleRecord env r h = (match st with
        | .clientCertificate => handleClientCertificate env (Record.new .handshake content)
        | .clientCertificateVerify => handleClientCertificateVerify (Record.new .handshake content)
        | .clientFinished => handleClientFinish (Record.new .handshake content)
        | .finishWithError _ => handleClientFinish (Record.new .handshake content)
        | _ => pure ()) { h with stream := h.stream.setProtection (some p') } := by
  subst hs
  obtain ⟨r, p', h1, h2, h3, h4⟩ := opens hx hk hn (t := .handshake) (by decide) hw
  refine ⟨r, p', h1, h4, ?_⟩
  have hd : decryptRecord r h = (.ok (.handshake, content), { h with stream := h.stream.setProtection (some p') }) := by
    unfold decryptRecord
    have : getProtection h = (.ok p, h) := by
      unfold getProtection
      rw [hp]
      rfl
    refine (Step.bind_of_ok this).trans ?_
    rw [h3]
  have he : handleEncryptedRecord env r h = (match h.state with
        | .clientCertificate => handleClientCertificate env (Record.new .handshake content)
        | .clientCertificateVerify => handleClientCertificateVerify (Record.new .handshake content)
        | .clientFinished => handleClientFinish (Record.new .handshake content)
        | .finishWithError _ => handleClientFinish (Record.new .handshake content)
        | _ => pure ()) { h with stream := h.stream.setProtection (some p') } := by
    unfold handleEncryptedRecord
    refine (Step.bind_of_ok hd).trans ?_
    simp only []
    rw [Step.bind_get, if_neg (by
      rintro (h | h)
      · exact h rfl
      · exact hca h)]
    rfl
  rw [← he]
  unfold handleRecord
  rw [Step.bind_get, h2]
  simp only []

theorem certificate_of {env : ServerEnv} {h : ServerHandshake} {t : HashType} {m content c : Bytes} {cert : Certificate}
    (ht : h.tshash = some (ts t m)) (hc : h.certificateRequestContext = some c) (hcl : c.length = 32) (hpr : Presented env (some c) content cert) :
    handleClientCertificate env (Record.new .handshake content) h = (.ok (), { h with
      tshash := some (ts t (m ++ content)), tshashClienthelloServerfinished := some (ts t m), clientCert := some cert, state := .clientCertificateVerify }) := by
  obtain ⟨ca, hs, c', rest, x, hca, e1, hty, hcc, hfr, hfh, hsg, hx, hfn⟩ := hpr
  have := Option.some.inj hcc
  subst this
  have hlen : (beBytes 1 c.length) = [32#8] := by rw [hcl]; rfl
  unfold handleClientCertificate
  have e1' : Handshake.fromRaw (Record.new .handshake content).fraqment = .ok hs := e1
  rw [Step.bind_lift_ok e1', hca]
  simp only []
  rw [if_neg (by simp [hty])]
  refine (Step.bind_of_ok (tshash_of ht)).trans ?_
  rw [Step.bind_modify]
  refine (Step.bind_of_ok (update_of (h := { h with tshashClienthelloServerfinished := some (ts t m) }) ht _)).trans ?_
  have hi : (idx hs.fraqment 0 : Res TlsError Byte) = .ok 32#8 := by rw [hfr, hlen]; rfl
  refine (Step.bind_lift_ok hi _ _).trans ?_
  have hsl : (slice hs.fraqment 1 ((32#8 : Byte).toNat + 1) : Res TlsError Bytes) = .ok c := by
    rw [hfr, hlen]
    unfold slice
    rw [if_pos (by simp; omega)]
    simp only [List.cons_append, List.nil_append, List.drop_succ_cons, List.drop_zero]
    rw [List.take_left' (by rw [hcl]; rfl)]
  refine (Step.bind_lift_ok hsl _ _).trans ?_
  rw [Step.bind_get]
  have hu : (Res.unwrap ({ h with tshashClienthelloServerfinished := some (ts t m), tshash := some ((ts t m).update (Record.new .handshake content).fraqment) } : ServerHandshake).certificateRequestContext :
      Res TlsError Bytes) = .ok c := by
    show Res.unwrap h.certificateRequestContext = _
    rw [hc]; rfl
  refine (Step.bind_lift_ok hu _ _).trans ?_
  rw [if_neg (by simp), hfh]
  simp only []
  have hlast : (Res.unwrap [cert].getLast? : Res TlsError Certificate) = .ok cert := rfl
  rw [Step.bind_lift_ok hlast, hsg]
  simp only []
  rw [Step.bind_lift_ok (a := x) (by rw [hx]; rfl)]
  cases hf : env.config.clientCertCustomVerifyFn with
  | none =>
    simp only []
    rw [if_neg (by simp), Step.bind_modify, ts_update]
    rfl
  | some f =>
    simp only [hfn f hf]
    rw [if_neg (by simp), Step.bind_modify, ts_update]
    rfl

theorem certificateVerify_of {x : Params} {h : ServerHandshake} {m content : Bytes} {cert : Certificate}
    (ht : h.tshash = some (ts x.t m)) (hc : h.clientCert = some cert) (hl : content.length < 2 ^ 16) (hpo : Possessed x m content cert) :
    handleClientCertificateVerify (Record.new .handshake content) h = (.ok (), { h with tshash := some (ts x.t (m ++ content)), state := .clientFinished }) := by
  obtain ⟨hs, e1, hty, sig, size, e2, e3, e4, e5⟩ := hpo
  have hfr := (handshake_inv e1).2.2.1
  have hz := fromDer_size e3
  have hsz : toU16 (beBytes 2 size) = size := by
    simp only [List.length_drop] at hz
    exact HelloProof.toU16_be' size (by omega)
  unfold handleClientCertificateVerify
  have e1' : Handshake.fromRaw (Record.new .handshake content).fraqment = .ok hs := e1
  rw [Step.bind_lift_ok e1', Step.bind_get, hc]
  simp only []
  rw [if_neg (by simp [hty]), Step.bind_lift_ok e2, Step.bind_lift_ok (a := .ecdsaSecp256r1Sha256) (by decide), if_neg (by simp)]
  have hsf : (sliceFrom hs.fraqment 4 : Res TlsError Bytes) = .ok (hs.fraqment.drop 4) := by
    unfold sliceFrom
    rw [if_pos]
    unfold slice at e4
    split_ifs at e4 with hh
    omega
  rw [Step.bind_lift_ok hsf, e3]
  simp only []
  refine (Step.bind_of_ok (tshash_of ht)).trans ?_
  refine (Step.bind_lift_ok (a := true) e5 _ _).trans ?_
  rw [if_neg (by simp), Step.bind_lift_ok e4, if_neg (by simp [hsz])]
  refine (Step.bind_of_ok (update_of ht _)).trans ?_
  rw [ts_update, ← hc]
  rfl

theorem logApp_of (p : RecordPayloadProtection) (h : ServerHandshake) : ∃ l, logApplicationSecrets p h = (.ok (), { h with logged := l }) := by
  unfold logApplicationSecrets
  rcases h with ⟨_, _, kl, _⟩
  cases kl with
  | none => exact ⟨_, rfl⟩
  | some k => exact ⟨_, rfl⟩

theorem finish_of {x : Params} (hx : x.Ok) {h : ServerHandshake} {p : RecordPayloadProtection} {nw nr : Nat} {m0 m rest : Bytes}
    (hst : h.state = .clientFinished) (hp : h.stream.protection = some p) (hk : HsProt x false p nw nr)
    (ht : h.tshash = some (ts x.t m)) (h0 : (h.tshashClienthelloServerfinished = some (ts x.t m0)) ∨ (h.tshashClienthelloServerfinished = none ∧ m0 = m))
    (hm : m.length < 2 ^ 53) :
    ∃ h', handleClientFinish (Record.new .handshake (x.sess.finished .client m ++ rest)) h = (.ok (), h') := by
  obtain ⟨vd, hvd⟩ : ∃ vd, vd = Tls13.verifyData (rfcHash x.t) (x.sess.secret .client) ((rfcHash x.t).H m) := ⟨_, rfl⟩
  have hfl := finished_le x .client m hm
  have hfin : x.sess.finished .client m = Tls13.handshakeMessage HandshakeType.finished.code vd := by rw [hvd]; rfl
  have hvl : vd.length ≤ 52 := by
    rw [hfin] at hfl
    simp only [Tls13.handshakeMessage, List.length_append, beBytes_length, List.length_cons, List.length_nil] at hfl
    omega
  have e1 : Handshake.fromRaw (Record.new .handshake (x.sess.finished .client m ++ rest)).fraqment =
      .ok ⟨.finished, vd, Tls13.handshakeMessage HandshakeType.finished.code vd⟩ := by
    rw [hfin]
    exact fromRaw_message .finished vd rest (by omega)
  unfold handleClientFinish
  rw [Step.bind_lift_ok e1, Step.bind_get, if_neg (by simp)]
  have hgp : getProtection h = (.ok p, h) := by
    unfold getProtection
    rw [hp]
    rfl
  have hks : p.keySchedule.clientHandshakeTrafficSecret = ⟨x.t, x.sess.secret .client⟩ := by rw [hk.ks]; rfl
  have hv := verify_data x .client m hm
  rw [← hvd, ← hks] at hv
  obtain ⟨p', hg⟩ := generate_of hx hk m0
  have hg' : p.generateApplicationKeys (match h.tshashClienthelloServerfinished with
      | some t' => t'
      | none => ts x.t m) = .ok p' := by
    rcases h0 with h0 | ⟨h0, h00⟩
    · rw [h0]; exact hg
    · rw [h0, ← h00]; exact hg
  obtain ⟨l, hlog⟩ := logApp_of p' { h with stream := h.stream.setProtection (some p') }
  refine ⟨{ h with stream := h.stream.setProtection (some p'), logged := l, state := .ready }, ?_⟩
  refine (Step.bind_of_ok hgp).trans ?_
  refine (Step.bind_of_ok (tshash_of ht)).trans ?_
  refine (Step.bind_lift_ok hv _ _).trans ?_
  rw [if_neg (by simp)]
  refine (Step.bind_lift_ok hg' _ _).trans ?_
  unfold setProtection
  rw [Step.bind_modify]
  refine (Step.bind_of_ok hlog).trans ?_
  rw [hst]
  rfl

/-! ### The whole handshake -/

/-- One protected record. -/
theorem feed_of {env : ServerEnv} {w : Bytes} {ws : List Bytes} {n : Nat} {r : Record} {h h' : ServerHandshake} (h1 : Record.fromRaw w = .ok (n, r))
    (h2 : handleRecord env r h = (.ok (), h')) : feed env (w :: ws) h = feed env ws h' := by
  rw [feed, Step.bind_lift_ok h1]
  exact Step.bind_of_ok h2

/-- Records after the handshake is complete are ignored, except alerts. -/
theorem feed_tail (env : ServerEnv) : ∀ (ws : List Bytes) (h : ServerHandshake), h.state = .ready → (∀ w ∈ ws, ∃ t c, t ∈ [20#8, 22#8, 23#8] ∧ Tls13.IsRecord t c w) →
    feed env ws h = (.ok (), h)
  | [], h, _, _ => rfl
  | w :: ws, h, hr, hw => by
    obtain ⟨t, c, ht, v1, v2, hl, he⟩ := hw w List.mem_cons_self
    have key : ∀ t' : RecordType, t'.code = t → t' ≠ .alert → feed env (w :: ws) h = (.ok (), h) := by
      intro t' h1 h2
      have := RecProof.fromRaw_header t' v1 v2 c [] hl
      rw [h1, List.append_nil] at this
      refine (feed_of (h' := h) (by rw [he, RecProof.beBytes2]; exact this) ?_).trans (feed_tail env ws h hr fun v hv => hw v (List.mem_cons_of_mem _ hv))
      unfold handleRecord
      rw [Step.bind_get, hr]
      cases t' <;> first | rfl | exact absurd rfl h2
    simp only [List.mem_cons, List.not_mem_nil, or_false] at ht
    rcases ht with rfl | rfl | rfl
    · exact key .changeCipherSpec rfl (by decide)
    · exact key .handshake rfl (by decide)
    · exact key .applicationData rfl (by decide)

/-- The state after the client's Finished. -/
structure Done (x : Params) (messages written : Bytes) (k : ServerHandshake) : Prop where
  state : k.state = .ready
  out : out k.stream = written
  prot : ∃ p, k.stream.protection = some p ∧ p.cipher = x.c ∧ RecProof.wKey p = x.appKey messages .server ∧ RecProof.rKey p = x.appKey messages .client ∧
    p.isClient = false

theorem finish_done {env : ServerEnv} {x : Params} (hx : x.Ok) {h : ServerHandshake} {p : RecordPayloadProtection} {nw nr : Nat} {m0 m rest w : Bytes} {ws : List Bytes}
    (hst : h.state = .clientFinished) (hp : h.stream.protection = some p) (hk : HsProt x false p nw nr) (hn : nr < 2 ^ 63)
    (ht : h.tshash = some (ts x.t m)) (h0 : (h.tshashClienthelloServerfinished = some (ts x.t m0)) ∨ (h.tshashClienthelloServerfinished = none ∧ m0 = m))
    (hm0 : m0.length < 2 ^ 53) (hm : m.length < 2 ^ 53) (hca : ¬ (env.config.clientCertCa.isSome ∧ h.certificateRequestContext.isNone))
    (hw : Tls13.Protected (aead x.c) (x.sess.key .client) (x.sess.iv .client) nr 22#8 (x.sess.finished .client m ++ rest) w) :
    ∃ k, feed env (w :: ws) h = feed env ws k ∧ Done x m0 (FlowProof.out h.stream) k := by
  obtain ⟨r, p', h1, h2, h3⟩ := encrypted_of hx hp hk hn hw hst (by decide) (by decide) hca
  simp only [] at h3
  obtain ⟨k, h4⟩ := finish_of hx (h := { h with stream := h.stream.setProtection (some p') }) (rest := rest) hst rfl h2 ht h0 hm
  obtain ⟨_, q, l, _, g2, g3, g4, g5, _, _, g6⟩ := finish_ok hx h4 hst rfl h2 ht h0 hm0 hm
  rw [h4] at h3
  refine ⟨k, feed_of h1 h3, ?_⟩
  rw [g6]
  exact ⟨rfl, rfl, q, rfl, g4, g2, g3, g5⟩

/-- The hello of a client makes the server send its whole flight. -/
theorem server_first {env : ServerEnv} {reads : List Bytes} {x : Params} {ch sh ccs chRec : Bytes} {rng : Rng} {context : Option Bytes} {flight : List Bytes}
    (hu : env.config.prngType = .urandom) (hcl : env.config.cert.raw.length + 200 ≤ 2 ^ 24) (hrec : Tls13.IsRecord 22#8 ch chRec) (hl : ch.length ≤ 4096)
    (ha : HelloAnsweredBy env reads x ch sh ccs rng) (hd : Drawn env rng context) (hf : ServerFlight env x context flight) :
    ∃ swire k, x.Ok ∧ Tls13.Sent (aead x.c) (x.sess.key .server) (x.sess.iv .server) 0 flight swire ∧ feed env [chRec] (base env reads) = (.ok (), k) ∧
      FlowProof.out k.stream = Tls13.plainRecord 22#8 sh ++ ccs ++ swire ∧ k.state ≠ .ready := by
  obtain ⟨v1, v2, hchl, rfl⟩ := hrec
  have hraw := RecProof.fromRaw_header .handshake v1 v2 ch [] hchl
  rw [List.append_nil] at hraw
  rw [RecProof.beBytes2]
  obtain ⟨record, hrecord⟩ : ∃ record : Record, record = ⟨.handshake, v1.toNat * 256 + v2.toNat, ch.length,
    [RecordType.handshake.code, v1, v2, BitVec.ofNat 8 (ch.length / 256), BitVec.ofNat 8 ch.length], ch⟩ := ⟨_, rfl⟩
  rw [← hrecord] at hraw
  have hfrag : record.fraqment = ch := by rw [hrecord]
  have hb : (base env reads).rng = .urandom reads := by
    show (match env.config.prngType with
      | .simple => Rng.simple 0
      | .urandom => Rng.urandom reads) = _
    rw [hu]
  obtain ⟨swire, p, k0, a1, hx, a3, a4, a5, a6, a7, a8, a9, a10, a11, a12, a13, a14⟩ := hello_of (h := base env reads) (record := record)
    (by rw [hfrag]; exact ha) hd hf hb hcl rfl (by rw [hfrag]; exact hl) rfl rfl
  have hh : handleRecord env record (base env reads) = (.ok (), k0) := by
    unfold handleRecord
    rw [Step.bind_get, hrecord]
    simp only []
    have : (base env reads).state = .clientHello := rfl
    rw [this]
    simp only []
    rw [if_neg (by decide), ← hrecord]
    exact a1
  refine ⟨swire, k0, hx, a6, feed_of hraw hh, a7, ?_⟩
  rw [a10]
  split_ifs <;> decide

/-- A conforming client's records take the server to the end of the handshake. -/
theorem server_feed {env : ServerEnv} {reads : List Bytes} {x : Params} {ch sh ccs chRec rest : Bytes} {rng : Rng} {context : Option Bytes} {flight auth records tail : List Bytes}
    (hu : env.config.prngType = .urandom) (hcl : env.config.cert.raw.length + 200 ≤ 2 ^ 24) (hrec : Tls13.IsRecord 22#8 ch chRec) (hl : ch.length ≤ 4096)
    (ha : HelloAnsweredBy env reads x ch sh ccs rng) (hd : Drawn env rng context) (hf : ServerFlight env x context flight)
    (hau : ClientAuth env x context (x.hellos ++ flight.flatten) auth)
    (hr : Tls13.ProtectedFlight (aead x.c) (x.sess.key .client) (x.sess.iv .client) 0
      (auth ++ [x.sess.finished .client (x.hellos ++ flight.flatten ++ auth.flatten) ++ rest]) records)
    (htail : ∀ w ∈ tail, ∃ t c, t ∈ [20#8, 22#8, 23#8] ∧ Tls13.IsRecord t c w) :
    ∃ k swire, x.Ok ∧ auth.length ≤ 2 ∧ feed env (chRec :: (records ++ tail)) (base env reads) = (.ok (), k) ∧
      Tls13.Sent (aead x.c) (x.sess.key .server) (x.sess.iv .server) 0 flight swire ∧
      Done x (x.hellos ++ flight.flatten) (Tls13.plainRecord 22#8 sh ++ ccs ++ swire) k ∧
      (∃ k', feed env [chRec] (base env reads) = (.ok (), k') ∧ FlowProof.out k'.stream = Tls13.plainRecord 22#8 sh ++ ccs ++ swire ∧ k'.state ≠ .ready) := by
  obtain ⟨v1, v2, hchl, rfl⟩ := hrec
  have hraw := RecProof.fromRaw_header .handshake v1 v2 ch [] hchl
  rw [List.append_nil] at hraw
  rw [RecProof.beBytes2]
  obtain ⟨record, hrecord⟩ : ∃ record : Record, record = ⟨.handshake, v1.toNat * 256 + v2.toNat, ch.length,
    [RecordType.handshake.code, v1, v2, BitVec.ofNat 8 (ch.length / 256), BitVec.ofNat 8 ch.length], ch⟩ := ⟨_, rfl⟩
  rw [← hrecord] at hraw
  have hfrag : record.fraqment = ch := by rw [hrecord]
  have hb : (base env reads).rng = .urandom reads := by
    show (match env.config.prngType with
      | .simple => Rng.simple 0
      | .urandom => Rng.urandom reads) = _
    rw [hu]
  obtain ⟨swire, p, k0, a1, hx, a3, a4, a5, a6, a7, a8, a9, a10, a11, a12, a13, a14⟩ := hello_of (h := base env reads) (record := record)
    (by rw [hfrag]; exact ha) hd hf hb hcl rfl (by rw [hfrag]; exact hl) rfl rfl
  have hh : handleRecord env record (base env reads) = (.ok (), k0) := by
    unfold handleRecord
    rw [Step.bind_get, hrecord]
    simp only []
    have : (base env reads).state = .clientHello := rfl
    rw [this]
    simp only []
    rw [if_neg (by decide), ← hrecord]
    exact a1
  have hout : FlowProof.out k0.stream = Tls13.plainRecord 22#8 sh ++ ccs ++ swire := a7
  have h14 : k0.tshashClienthelloServerfinished = none := a14
  obtain ⟨ws, hi, hpl⟩ := plain_of hr
  have hbeg : Begun k0 := by
    unfold Begun
    rw [a10]
    split_ifs <;> decide
  obtain ⟨T, hT⟩ : ∃ T, T = x.hellos ++ flight.flatten := ⟨_, rfl⟩
  rw [← hT] at hau hpl a11 ⊢
  have hTl : T.length < 2 ^ 27 := by rw [hT, List.length_append]; omega
  obtain ⟨k, hk, hlen, hdone⟩ : ∃ k, feed env ws k0 = (.ok (), k) ∧ auth.length ≤ 2 ∧ Done x T (FlowProof.out k0.stream) k := by
    unfold ClientAuth at hau
    cases hca : env.config.clientCertCa with
    | none =>
      rw [hca] at hau a10
      subst hau
      obtain ⟨w, ws', rfl, hw, hws⟩ := hpl
      have hws : ws' = [] := hws
      subst hws
      simp only [List.flatten_nil, List.append_nil] at hw
      obtain ⟨k, hk, hdone⟩ := finish_done (env := env) (ws := []) (m0 := T) hx a10 a8 a9 (by omega) a11 (.inr ⟨h14, rfl⟩) (by omega) (by omega)
        (by rw [hca]; simp) hw
      exact ⟨k, hk, by simp, hdone⟩
    | some ca =>
      rw [hca] at hau a10
      have a10 : k0.state = .clientCertificate := a10
      obtain ⟨m1, m2, cert, rfl, hpr, hpo⟩ := hau
      obtain ⟨request, cv, hreq, _⟩ := hf
      unfold Requested at hreq
      rw [hca] at hreq
      obtain ⟨c, hc32, rfl, _⟩ := hreq
      obtain ⟨w1, ws1, rfl, hw1, w2, ws2, rfl, hw2, w3, ws3, rfl, hw3, hws⟩ := hpl
      have hws : ws3 = [] := hws
      subst hws
      have l1 : m1.length < 2 ^ 16 := by obtain ⟨_, _, _, hh, _⟩ := hw1; omega
      have l2 : m2.length < 2 ^ 16 := by obtain ⟨_, _, _, hh, _⟩ := hw2; omega
      have hncond : ∀ h : ServerHandshake, h.certificateRequestContext = some c → ¬ (env.config.clientCertCa.isSome ∧ h.certificateRequestContext.isNone) := by
        intro h he hh
        rw [he] at hh
        simp at hh
      obtain ⟨r1, p1, b1, b2, b3⟩ := encrypted_of (env := env) hx a8 a9 (by omega) hw1 a10 (by decide) (by decide) (hncond _ a13)
      simp only [] at b3
      rw [certificate_of (h := { k0 with stream := k0.stream.setProtection (some p1) }) a11 a13 hc32 hpr] at b3
      obtain ⟨k1, hk1⟩ : ∃ k1 : ServerHandshake, k1 = { k0 with
        stream := k0.stream.setProtection (some p1), tshash := some (ts x.t (T ++ m1)), tshashClienthelloServerfinished := some (ts x.t T)
        clientCert := some cert, state := .clientCertificateVerify } := ⟨_, rfl⟩
      have b3 : handleRecord env r1 k0 = (.ok (), k1) := by rw [hk1]; exact b3
      have hk1s : k1.state = .clientCertificateVerify := by rw [hk1]
      obtain ⟨r2, p2, c1, c2, c3⟩ := encrypted_of (env := env) hx (h := k1) (by rw [hk1]; rfl) b2 (by omega) hw2 hk1s (by decide) (by decide)
        (hncond _ (by rw [hk1]; exact a13))
      simp only [] at c3
      rw [certificateVerify_of (x := x) (m := T ++ m1) (cert := cert) (h := { k1 with stream := k1.stream.setProtection (some p2) }) (by rw [hk1]) (by rw [hk1]) l2 hpo] at c3
      obtain ⟨k2, hk2⟩ : ∃ k2 : ServerHandshake, k2 = { k1 with
        stream := k1.stream.setProtection (some p2), tshash := some (ts x.t (T ++ m1 ++ m2)), state := .clientFinished } := ⟨_, rfl⟩
      have c3 : handleRecord env r2 k1 = (.ok (), k2) := by rw [hk2]; exact c3
      have hfl : T ++ [m1, m2].flatten = T ++ m1 ++ m2 := by simp
      rw [hfl] at hw3
      obtain ⟨k, hk, hdone⟩ := finish_done (env := env) (h := k2) (ws := []) (m0 := T) hx (by rw [hk2]) (by rw [hk2]; rfl) c2 (by omega) (by rw [hk2])
        (.inl (by rw [hk2, hk1])) (by omega) (by simp only [List.length_append]; omega) (hncond _ (by rw [hk2, hk1]; exact a13)) hw3
      refine ⟨k, ?_, by simp, ?_⟩
      · rw [feed_of b1 b3, feed_of c1 c3]
        exact hk
      · rw [hk2, hk1] at hdone
        exact hdone
  have e1 : feed env (([RecordType.handshake.code, v1, v2, BitVec.ofNat 8 (ch.length / 256), BitVec.ofNat 8 ch.length] ++ ch) :: (records ++ tail)) (base env reads) = (.ok (), k) := by
    rw [feed_of hraw hh, feed_append]
    have h5 := feed_ccs env hi k0 hbeg
    rw [hk] at h5
    exact (Step.bind_of_ok h5).trans (feed_tail env tail k hdone.state htail)
  refine ⟨k, swire, hx, hlen, e1, a6, by rw [← hout]; exact hdone, k0, ?_, hout, ?_⟩
  · exact feed_of hraw hh
  · rw [a10]; split_ifs <;> decide

end ATLS.ServerProof
