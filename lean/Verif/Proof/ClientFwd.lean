import Verif.Proof.ServerFwd
import Verif.Props.Client
/-
The client's handshake with a conforming server goes through.
-/
namespace ATLS.ClientProof
open ATLS ATLS.Model ATLS.Spec ClientHandshake FlowProof RecProof KsProof

theorem tshash_of {h : ClientHandshake} {t : TsHash} (ht : h.tshash = some t) : getTshash h = (.ok t, h) := by
  unfold getTshash
  rw [ht]
  rfl

theorem update_of {h : ClientHandshake} {t : TsHash} (ht : h.tshash = some t) (b : Bytes) :
    updateTshash b h = (.ok (), { h with tshash := some (t.update b) }) := by
  unfold updateTshash
  exact Step.bind_of_ok (tshash_of ht)

theorem protection_of {h : ClientHandshake} {p : RecordPayloadProtection} (hp : h.stream.protection = some p) : getProtection h = (.ok p, h) := by
  unfold getProtection
  rw [hp]
  rfl

theorem write_hs_of {x : Params} (hx : x.Ok) {h : ClientHandshake} {p : RecordPayloadProtection} {nw nr : Nat} {m : Bytes} (hc : Calm h.stream)
    (hp : h.stream.protection = some p) (hk : HsProt x true p nw nr) (hn : nw < 2 ^ 63) (hm : m.length + 64 ≤ 2 ^ 24) :
    ∃ wire p' s, writeRecord .handshake m h = (.ok (), { h with stream := s }) ∧ Calm s ∧
      Tls13.Sent (aead x.c) (x.sess.key .client) (x.sess.iv .client) nw [m] wire ∧
      out s = out h.stream ++ wire ∧ s.protection = some p' ∧ HsProt x true p' (nw + 1) nr := by
  obtain ⟨s, h1, h2⟩ := write_prot_calm hx hc hp hk hn .handshake hm
  have hw : writeRecord .handshake m h = (.ok (), { h with stream := s }) := by
    unfold writeRecord onStream
    simp only [h1]
  obtain ⟨wire, p', s', g1, g2, g3, g4, g5, _⟩ := write_hs hw hp hk hn
  have : s = s' := congrArg ClientHandshake.stream g1
  subst this
  exact ⟨wire, p', s, hw, h2, g2, g3, g4, g5⟩

theorem log_of (env : ClientEnv) (p : Option RecordPayloadProtection) {r : Bytes} {h : ClientHandshake} (hr : h.clientHelloRandom = some r) :
    ∃ k l, logHandshakeSecrets env p h = (.ok (), { h with keylog := k, logged := l }) := by
  unfold logHandshakeSecrets
  cases hk : env.config.keylog with
  | none => exact ⟨h.keylog, h.logged, rfl⟩
  | some f =>
    cases p with
    | none => exact ⟨h.keylog, h.logged, rfl⟩
    | some p =>
      refine ⟨some (KeyLog.new f r), h.logged ++ [(KeyLog.new f r).handshakeTrafficSecrets p.handshakeKeys.server.trafficSecret p.handshakeKeys.client.trafficSecret], ?_⟩
      simp only []
      rw [Step.bind_get, Step.bind_lift_ok (a := r) (by rw [hr]; rfl)]
      rfl

theorem logApp_of (p : RecordPayloadProtection) (h : ClientHandshake) : ∃ l, logApplicationSecrets p h = (.ok (), { h with logged := l }) := by
  unfold logApplicationSecrets
  rcases h with ⟨_, _, _, kl, _⟩
  cases kl with
  | none => exact ⟨_, rfl⟩
  | some k => exact ⟨_, rfl⟩

/-- The ClientHello is sent. -/
theorem hello_of {env : ClientEnv} {reads : List Bytes} {n : Int} {ch : Bytes} (ho : Offered env reads n ch) :
    ∃ g rng random, ((Rng.urandom reads).between 1 32 : Res TlsError (Int × Rng)) = .ok (n, g) ∧
      sendClientHello env (first n g) = (.ok (), { first n g with
        rng := rng, clientHelloRandom := some random, clientHelloBytes := some ch
        stream := { TlsStream.new ⟨[], [], []⟩ with stream := ⟨[], [], Tls13.plainRecord 22#8 ch⟩ } }) := by
  obtain ⟨rng1, rng2, rng3, random, sid, h1, h2, h3, l1, l2, b1, b2, hch⟩ := ho
  refine ⟨rng1, rng3, random, h1, ?_⟩
  unfold sendClientHello
  rw [Step.bind_get]
  have h2' : ((first n rng1).rng.bytes 32 : Res TlsError (Bytes × Rng)) = .ok (random, rng2) := h2
  rw [Step.bind_lift_ok h2']
  simp only []
  rw [Step.bind_lift_ok h3]
  simp only []
  rw [Step.bind_modify]
  have hk : keyShareOf (first n rng1).privateKey = _ := keyShareOf_eq b1 b2
  rw [hk]
  simp only []
  rw [Step.bind_lift_ok rfl]
  rw [Step.bind_lift_ok (C35_rfc_encoding random sid _ _ (by rw [List.length_reverse]; exact publicShare_length n))]
  rw [List.reverse_reverse, Step.bind_modify, toBytes_eq]
  have : Tls13.handshakeMessage HandshakeType.clientHello.code (Tls13.clientOffer random sid (publicShare n) env.config.serverName).bytes = ch := by rw [hch]; rfl
  rw [this, ServerProof.new_bytes]
  rfl

theorem serverHello_of {env : ClientEnv} {n : Int} {ch random : Bytes} {h : ClientHandshake} {record : Record} {x : Params}
    (ha : ServerAnswered x n ch record.fraqment) (hch : h.clientHelloBytes = some ch) (hr : h.clientHelloRandom = some random)
    (hl : x.hellos.length < 2 ^ 53) (hk : h.privateKey = ⟨.curve25519, n⟩) :
    ∃ p kl lg, handleServerHello env record h = (.ok (), { h with
        stream := h.stream.setProtection (some p), tshash := some (ts x.t x.hellos), state := .encryptedExtensions, keylog := kl, logged := lg }) ∧
      x.Ok ∧ HsProt x true p 0 0 := by
  obtain ⟨hs, hello, share, e1, hty, e2, e3, hg, hss, hcs, ht, hci, hhl⟩ := ha
  obtain ⟨hks, hel⟩ := fromHandshake_of (x := x) (by omega) hg hss
  have hx : x.Ok := ⟨hci, by omega⟩
  obtain ⟨p, hnew⟩ := new_of hx true
  have hprot := new_hsProt hx true hnew
  obtain ⟨kl, lg, hlog⟩ := log_of env (some p) hr
  refine ⟨p, kl, lg, ?_, hx, hprot⟩
  unfold handleServerHello
  rw [Step.bind_lift_ok e1, if_neg (by simp [hty]), Step.bind_lift_ok e2, Step.bind_lift_ok (by rw [← hcs]; exact ht), Step.bind_get,
    Step.bind_lift_ok (a := ch) (by rw [hch]; rfl), ts_new, ts_update, ← hhl]
  refine (Step.bind_lift_ok (a := share) (by rw [e3]; rfl) _ _).trans ?_
  rw [← hk] at hks
  refine (Step.bind_lift_ok hks _ _).trans ?_
  refine (Step.bind_lift_ok (by rw [← hcs]; exact hci) _ _).trans ?_
  refine (Step.bind_lift_ok (by rw [hnew]; rfl) _ _).trans ?_
  refine (Step.bind_of_ok hlog).trans ?_
  rfl

/-! ### The messages of the server -/

/-- A handshake message, by type and body. -/
abbrev Msg := HandshakeType × Bytes

def Msg.raw (m : Msg) : Bytes := Tls13.handshakeMessage m.1.code m.2
def Msg.hs (m : Msg) : Handshake := ⟨m.1, m.2, m.raw⟩

theorem Msg.raw_length (m : Msg) : m.raw.length = m.2.length + 4 := by
  simp only [Msg.raw, Tls13.handshakeMessage, List.length_append, beBytes_length, List.length_cons, List.length_nil]
  omega

/-- The messages handled one after the other. -/
def told (env : ClientEnv) : List Msg → M Unit
  | [] => pure ()
  | m :: ms => do
    handleMessage env m.hs
    told env ms

theorem told_append (env : ClientEnv) : ∀ (a b : List Msg) (h : ClientHandshake), told env (a ++ b) h = (told env a >>= fun _ => told env b) h
  | [], b, h => rfl
  | m :: ms, b, h => by
    simp only [List.cons_append, told]
    rw [Step.bind_eq, Step.bind_eq, Step.bind_eq]
    rcases handleMessage env m.hs h with ⟨_ | _ | _, h'⟩
    · exact (told_append env ms b h').trans (Step.bind_eq _ _ _)
    · rfl
    · rfl

theorem loop_of (env : ClientEnv) : ∀ (ms : List Msg) (fuel : Nat) (h : ClientHandshake), (∀ m ∈ ms, m.2.length < 2 ^ 24) → ms.length ≤ fuel →
    messagesLoop env fuel (ms.map Msg.raw).flatten h = told env ms h
  | [], fuel, h, _, _ => by cases fuel <;> rfl
  | m :: ms, fuel, h, hm, hf => by
    rw [List.length_cons] at hf
    obtain ⟨n, rfl⟩ : ∃ n, fuel = n + 1 := ⟨fuel - 1, by omega⟩
    rw [List.map_cons, List.flatten_cons]
    unfold messagesLoop
    rw [if_neg (by
      intro he
      have := congrArg List.length he
      rw [List.length_append, m.raw_length, List.length_nil] at this
      omega)]
    have := fromRaw_message m.1 m.2 (ms.map Msg.raw).flatten (hm m List.mem_cons_self)
    refine (Step.bind_lift_ok this _ _).trans ?_
    have hd : (m.raw ++ (ms.map Msg.raw).flatten).drop (Tls13.handshakeMessage m.1.code m.2).length = (ms.map Msg.raw).flatten := List.drop_left' rfl
    simp only [hd]
    rw [told, Step.bind_eq, Step.bind_eq]
    have hh : (⟨m.1, m.2, Tls13.handshakeMessage m.1.code m.2⟩ : Handshake) = m.hs := rfl
    rw [hh]
    rcases handleMessage env m.hs h with ⟨_ | _ | _, h'⟩
    · exact loop_of env ms n h' (fun m' hm' => hm m' (List.mem_cons_of_mem _ hm')) (by omega)
    · rfl
    · rfl

theorem length_le (ms : List Msg) : ms.length ≤ (ms.map Msg.raw).flatten.length := by
  induction ms with
  | nil => simp
  | cons m ms ih =>
    rw [List.map_cons, List.flatten_cons, List.length_append, m.raw_length, List.length_cons]
    omega

/-- A protected record is opened and its messages are handled. -/
theorem encrypted_of {env : ClientEnv} {x : Params} (hx : x.Ok) {h : ClientHandshake} {p : RecordPayloadProtection} {nw nr : Nat} {ms : List Msg} {wire : Bytes}
    (hp : h.stream.protection = some p) (hk : HsProt x true p nw nr) (hn : nr < 2 ^ 63)
    (hw : Tls13.Protected (aead x.c) (x.sess.key .server) (x.sess.iv .server) nr 22#8 (ms.map Msg.raw).flatten wire)
    (hst : h.state ≠ .serverHello) (hst' : h.state ≠ .ready) :
    ∃ r p', Record.fromRaw wire = .ok (wire.length, r) ∧ HsProt x true p' nw (nr + 1) ∧
      handleRecord env r h = told env ms { h with stream := h.stream.setProtection (some p') } := by
  have hlen : (ms.map Msg.raw).flatten.length < 2 ^ 16 := by
    obtain ⟨_, _, _, hh, _⟩ := hw
    omega
  obtain ⟨r, p', h1, h2, h3, h4⟩ := opens hx hk hn (t := .handshake) (by decide) hw
  refine ⟨r, p', h1, h4, ?_⟩
  have hd : decryptRecord r h = (.ok (.handshake, (ms.map Msg.raw).flatten), { h with stream := h.stream.setProtection (some p') }) := by
    unfold decryptRecord
    refine (Step.bind_of_ok (protection_of hp)).trans ?_
    rw [h3]
  have hmem : ∀ m ∈ ms, m.2.length < 2 ^ 24 := by
    intro m hm
    have : m.raw.length ≤ (ms.map Msg.raw).flatten.length := by
      rw [List.length_flatten]
      exact List.single_le_sum (by simp) _ (List.mem_map.2 ⟨m.raw, List.mem_map.2 ⟨m, hm, rfl⟩, rfl⟩)
    rw [m.raw_length] at this
    omega
  have he : handleEncryptedRecord env r h = told env ms { h with stream := h.stream.setProtection (some p') } := by
    unfold handleEncryptedRecord
    refine (Step.bind_of_ok hd).trans ?_
    simp only []
    rw [if_neg (by decide)]
    exact loop_of env ms _ _ hmem (length_le ms)
  rw [← he]
  unfold handleRecord
  rw [Step.bind_get, h2]
  simp only []

theorem extensions_of {env : ClientEnv} {t : HashType} {h : ClientHandshake} {m b : Bytes} (hs : h.state = .encryptedExtensions) (ht : h.tshash = some (ts t m)) :
    handleMessage env (Msg.hs (.encryptedExtensions, b)) h = (.ok (), { h with
      tshash := some (ts t (m ++ Msg.raw (.encryptedExtensions, b))), state := .clientCertificateRequest }) := by
  unfold handleMessage
  rw [Step.bind_get, hs]
  simp only []
  unfold handleEncryptedExtension
  rw [if_neg (by simp [Msg.hs])]
  refine (Step.bind_of_ok (update_of ht _)).trans ?_
  rw [ts_update]
  rfl

theorem request_of {env : ClientEnv} {t : HashType} {h : ClientHandshake} {m b : Bytes} (hs : h.state = .clientCertificateRequest ∨ h.state = .serverCertificate)
    (ht : h.tshash = some (ts t m)) :
    handleMessage env (Msg.hs (.certificateRequest, b)) h = (.ok (), { h with
      tshash := some (ts t (m ++ Msg.raw (.certificateRequest, b))), certificateRequest := some b, state := .serverCertificate }) := by
  have key : ((do
      .modify fun h => { h with certificateRequest := some (Msg.hs (.certificateRequest, b)).fraqment }
      updateTshash (Msg.hs (.certificateRequest, b)).raw
      setState .serverCertificate) : M Unit) h = (.ok (), { h with
      tshash := some (ts t (m ++ Msg.raw (.certificateRequest, b))), certificateRequest := some b, state := .serverCertificate }) := by
    rw [Step.bind_modify]
    refine (Step.bind_of_ok (update_of (h := { h with certificateRequest := some b }) ht _)).trans ?_
    rw [ts_update]
    rfl
  rw [← key]
  unfold handleMessage
  rw [Step.bind_get]
  rcases hs with hs | hs
  · rw [hs]
    simp only []
    rw [if_pos (c := (Msg.hs (.certificateRequest, b)).handshakeType = .certificateRequest) rfl]
  · rw [hs]
    simp only []
    rw [if_pos (c := (Msg.hs (.certificateRequest, b)).handshakeType = .certificateRequest) rfl]

theorem certificate_of {env : ClientEnv} {t : HashType} {h : ClientHandshake} {m b : Bytes} {cert : Certificate}
    (hs : h.state = .clientCertificateRequest ∨ h.state = .serverCertificate) (ht : h.tshash = some (ts t m))
    (hc : Certificate.fromHello env.now b = .ok [cert]) :
    handleMessage env (Msg.hs (.certificate, b)) h = (.ok (), { h with
      tshash := some (ts t (m ++ Msg.raw (.certificate, b))), serverCert := some cert, state := .serverCertificateVerify }) := by
  have key : handleServerCertificate env (Msg.hs (.certificate, b)) h = (.ok (), { h with
      tshash := some (ts t (m ++ Msg.raw (.certificate, b))), serverCert := some cert, state := .serverCertificateVerify }) := by
    unfold handleServerCertificate
    rw [if_neg (by simp [Msg.hs])]
    refine (Step.bind_of_ok (update_of ht _)).trans ?_
    have hc' : Certificate.fromHello env.now (Msg.hs (.certificate, b)).fraqment = .ok [cert] := hc
    rw [hc', ts_update]
    rfl
  rw [← key]
  unfold handleMessage
  rw [Step.bind_get]
  rcases hs with hs | hs
  · rw [hs]
    simp only []
    rw [if_neg (by simp [Msg.hs])]
  · rw [hs]
    simp only []
    rw [if_neg (by simp [Msg.hs])]

theorem certificateVerify_of {env : ClientEnv} {t : HashType} {h : ClientHandshake} {m b : Bytes} {cert : Certificate}
    (hs : h.state = .serverCertificateVerify) (ht : h.tshash = some (ts t m)) (hc : h.serverCert = some cert) (hl : b.length < 2 ^ 16)
    (hv : Verified cert .server (ts t m) b) :
    handleMessage env (Msg.hs (.certificateVerify, b)) h = (.ok (), { h with
      tshash := some (ts t (m ++ Msg.raw (.certificateVerify, b))), state := .finished }) := by
  obtain ⟨sig, size, e2, e3, e4, e5⟩ := hv
  have hz := ServerProof.fromDer_size e3
  have hsz : toU16 (beBytes 2 size) = size := by
    simp only [List.length_drop] at hz
    exact HelloProof.toU16_be' size (by omega)
  unfold handleMessage
  rw [Step.bind_get, hs]
  simp only []
  unfold handleServerCertificateVerify
  rw [Step.bind_get, hc]
  simp only []
  have e2' : (slice (Msg.hs (.certificateVerify, b)).fraqment 0 2 : Res TlsError Bytes) = _ := e2
  have e4' : (slice (Msg.hs (.certificateVerify, b)).fraqment 2 4 : Res TlsError Bytes) = _ := e4
  rw [if_neg (by simp [Msg.hs]), Step.bind_lift_ok e2', Step.bind_lift_ok (a := .ecdsaSecp256r1Sha256) (by decide), if_neg (by simp)]
  have hsf : (sliceFrom (Msg.hs (.certificateVerify, b)).fraqment 4 : Res TlsError Bytes) = .ok (b.drop 4) := by
    unfold sliceFrom
    rw [if_pos]
    · rfl
    unfold slice at e4
    split_ifs at e4 with hh
    exact hh.2
  rw [Step.bind_lift_ok hsf, e3]
  simp only []
  refine (Step.bind_of_ok (tshash_of ht)).trans ?_
  refine (Step.bind_lift_ok (a := true) e5 _ _).trans ?_
  rw [if_neg (by simp)]
  refine (Step.bind_of_ok (update_of ht _)).trans ?_
  refine (Step.bind_lift_ok e4' _ _).trans ?_
  rw [if_neg (by simp [hsz]), ts_update]
  rw [← hc]
  rfl

/-! ### The client's flight -/

theorem sendVerify_of {env : ClientEnv} {x : Params} (hx : x.Ok) {h : ClientHandshake} {p : RecordPayloadProtection} {nw nr : Nat} {m der : Bytes}
    {cert : Certificate} {key : PrivateKey} {sig : Signature} (hc : env.config.clientCert = some cert) (hkey : env.config.clientKey = some key)
    (hs : Ecdsa.sign env.nonces key (Sha2.sha256 (Tls13.verifyContent .client (x.sess.hash.H m))) = .ok (some sig)) (hd : sig.toDer = .ok der)
    (ht : h.tshash = some (ts x.t m)) (hm : m.length < 2 ^ 53) (hcalm : Calm h.stream)
    (hp : h.stream.protection = some p) (hk : HsProt x true p nw nr) (hn : nw < 2 ^ 62) :
    ∃ wire p' s, sendCertificateVerify env h = (.ok (), { h with
        stream := s, tshash := some (ts x.t (m ++ Tls13.handshakeMessage 15#8 (Tls13.certificateVerifyMessage 0x0403 der))) }) ∧ Calm s ∧
      Tls13.Sent (aead x.c) (x.sess.key .client) (x.sess.iv .client) nw [Tls13.handshakeMessage 15#8 (Tls13.certificateVerifyMessage 0x0403 der)] wire ∧
      out s = out h.stream ++ wire ∧ s.protection = some p' ∧ HsProt x true p' (nw + 1) nr := by
  have hbody := cvBody_of .client hm hs hd
  obtain ⟨_, der', _, _, q1, q2⟩ := ServerProof.cvBody_inv .client hm hbody
  obtain ⟨cv, hcv⟩ : ∃ cv, cv = Tls13.handshakeMessage 15#8 (Tls13.certificateVerifyMessage 0x0403 der) := ⟨_, rfl⟩
  have hcvl : cv.length ≤ 200 := by
    rw [hcv, q1]
    simp only [Tls13.handshakeMessage, Tls13.certificateVerifyMessage, List.length_append, beBytes_length, List.length_cons, List.length_nil]
    omega
  have hcv' : Handshake.toBytes .certificateVerify (Tls13.certificateVerifyMessage 0x0403 der) = cv := by rw [toBytes_eq, hcv]; rfl
  rw [← hcv]
  obtain ⟨w, p', s, a1, a2, a3, a4, a5, a6⟩ := write_hs_of hx (h := { h with tshash := some (ts x.t (m ++ cv)) }) (m := cv) hcalm hp hk (by omega) (by omega)
  refine ⟨w, p', s, ?_, a2, a3, a4, a5, a6⟩
  unfold sendCertificateVerify
  rw [hc, hkey]
  simp only []
  refine (Step.bind_of_ok (tshash_of ht)).trans ?_
  refine (Step.bind_lift_ok hbody _ _).trans ?_
  rw [hcv']
  refine (Step.bind_of_ok (update_of ht _)).trans ?_
  rw [ts_update]
  exact a1

theorem byte_of_length {n : Nat} (h : n < 256) : beBytes 1 n = [BitVec.ofNat 8 n] ∧ (BitVec.ofNat 8 n).toNat = n := by
  refine ⟨by simp [beBytes], ?_⟩
  simp
  omega

theorem answer_of {env : ClientEnv} {x : Params} (hx : x.Ok) {h : ClientHandshake} {p : RecordPayloadProtection} {nr : Nat} {m : Bytes} {auth : List Bytes}
    {request : Option Bytes} (hreq : h.certificateRequest = request) (ha : ClientAnswer env x m request auth) (hr : ∀ b, request = some b → ReadableRequest b)
    (ht : h.tshash = some (ts x.t m)) (hm : m.length < 2 ^ 52) (hcl : ∀ c, env.config.clientCert = some c → c.raw.length + 400 ≤ 2 ^ 24) (hcalm : Calm h.stream)
    (hp : h.stream.protection = some p) (hk : HsProt x true p 0 nr) :
    ∃ wire p' s st, answerRequest env h = (.ok (), { h with stream := s, tshash := some (ts x.t (m ++ auth.flatten)), state := st }) ∧ Calm s ∧
      Tls13.Sent (aead x.c) (x.sess.key .client) (x.sess.iv .client) 0 auth wire ∧ out s = out h.stream ++ wire ∧ s.protection = some p' ∧
      HsProt x true p' auth.length nr ∧ auth.length ≤ 2 ∧ auth.flatten.length < 2 ^ 26 := by
  unfold answerRequest
  rw [Step.bind_get]
  cases request with
  | none =>
    have ha : auth = [] := ha
    subst ha
    refine ⟨[], p, h.stream, h.state, ?_, hcalm, rfl, by simp, hp, hk, by simp, by simp⟩
    rw [if_neg (by simp [hreq]), List.flatten_nil, List.append_nil, ← ht]
    rfl
  | some body =>
    rw [if_pos (by rw [hreq]; rfl)]
    obtain ⟨context', exts', rest', hc', hb', ha⟩ := ha
    obtain ⟨context, exts, rest, hc, hel, hb, hnp⟩ := hr body rfl
    obtain ⟨n1, n2⟩ := byte_of_length hc
    obtain ⟨n1', n2'⟩ := byte_of_length hc'
    have hctx : context' = context := by
      rw [hb, n1, n1'] at hb'
      simp only [List.append_assoc, List.cons_append, List.nil_append] at hb'
      obtain ⟨q1, q2⟩ := List.cons.inj hb'
      have : context.length = context'.length := by rw [← n2, ← n2', q1]
      exact (List.append_inj q2 this).1.symm
    subst hctx
    have e2 : (idx body 0 : Res TlsError Byte) = .ok (BitVec.ofNat 8 context'.length) := by rw [hb, n1]; rfl
    have e3 : (if (BitVec.ofNat 8 context'.length).toNat > 0 then slice body 1 ((BitVec.ofNat 8 context'.length).toNat + 1) else .ok [] : Res TlsError Bytes) = .ok context' := by
      rw [n2]
      by_cases hz : context'.length > 0
      · rw [if_pos hz, hb, n1]
        unfold slice
        rw [if_pos (by simp only [List.length_append, List.length_cons, List.length_nil, beBytes_length]; omega)]
        simp only [List.append_assoc, List.cons_append, List.nil_append, List.drop_succ_cons, List.drop_zero, Nat.add_sub_cancel]
        rw [List.take_left' rfl]
      · rw [if_neg hz, List.length_eq_zero_iff.1 (show context'.length = 0 by omega)]
    have hdrop : body.drop (1 + (BitVec.ofNat 8 context'.length).toNat) = beBytes 2 exts.length ++ (exts ++ rest) := by
      rw [hb, n2, n1]
      simp only [List.append_assoc]
      rw [← List.append_assoc, List.drop_left' (by simp; omega)]
    have hblen : body.length = 1 + context'.length + 2 + exts.length + rest.length := by
      rw [hb]
      simp only [List.length_append, beBytes_length]
    have e4 : (sliceFrom body (1 + (BitVec.ofNat 8 context'.length).toNat) : Res TlsError Bytes) = .ok (beBytes 2 exts.length ++ (exts ++ rest)) := by
      unfold sliceFrom
      rw [if_pos (by rw [n2]; omega), hdrop]
    have hu : toU16 (beBytes 2 exts.length ++ (exts ++ rest)) = exts.length := HelloProof.toU16_be _ (by omega) _
    have e5 : (slice body (1 + (BitVec.ofNat 8 context'.length).toNat + 2) (1 + (BitVec.ofNat 8 context'.length).toNat + 2 + toU16 (beBytes 2 exts.length ++ (exts ++ rest))) : Res TlsError Bytes) = .ok exts := by
      rw [hu]
      unfold slice
      rw [if_pos (by rw [n2]; omega), ← List.drop_drop, hdrop, List.drop_left' (beBytes_length _ _)]
      rw [show 1 + (BitVec.ofNat 8 context'.length).toNat + 2 + exts.length - (1 + (BitVec.ofNat 8 context'.length).toNat + 2) = exts.length by omega, List.take_left' rfl]
    obtain ⟨cm, hcm⟩ : ∃ cm, cm = Handshake.toBytes .certificate ([BitVec.ofNat 8 context'.length] ++ context' ++ (match env.config.clientCert with
          | some c => c.getCertificateForHandshake []
          | none => [0x00#8, 0x00#8, 0x00#8, 0x02#8, 0x00#8, 0x00#8])) := ⟨_, rfl⟩
    have hcml : cm.length + 64 ≤ 2 ^ 24 := by
      rw [hcm, toBytes_eq]
      have hlr : (match env.config.clientCert with
          | some c => c.getCertificateForHandshake []
          | none => [0x00#8, 0x00#8, 0x00#8, 0x02#8, 0x00#8, 0x00#8]).length + 380 ≤ 2 ^ 24 := by
        cases hc : env.config.clientCert with
        | none => simp
        | some c =>
          have := hcl c hc
          simp only [Certificate.getCertificateForHandshake, List.length_append, List.length_cons, List.length_nil]
          omega
      simp only [Tls13.handshakeMessage, List.length_append, beBytes_length, List.length_cons, List.length_nil]
      omega
    obtain ⟨w1, p1, s1, a1, a2, a3, a4, a5, a6⟩ := write_hs_of hx (m := cm) hcalm hp hk (by omega) hcml
    have a7 := update_of (h := { h with stream := s1 }) (t := ts x.t m) ht cm
    rw [ts_update] at a7
    have start : ∀ h', ((do
        sendCertificateVerify env
        setState .serverCertificate) : M Unit) { h with stream := s1, tshash := some (ts x.t (m ++ cm)) } = (.ok (), h') →
        handleCertificateRequest env h = (.ok (), h') := by
      intro h' hh
      unfold handleCertificateRequest
      rw [Step.bind_get, Step.bind_lift_ok (a := body) (by rw [hreq]; rfl), Step.bind_lift_ok e2, Step.bind_lift_ok e3]
      simp only []
      rw [Step.bind_lift_ok e4, Step.bind_lift_ok e5]
      have fin : ((do
          writeRecord .handshake cm
          updateTshash cm
          sendCertificateVerify env
          setState .serverCertificate) : M Unit) h = (.ok (), h') := by
        refine (Step.bind_of_ok a1).trans ?_
        refine (Step.bind_of_ok a7).trans ?_
        exact hh
      rw [hcm] at fin
      cases hfr : CertificateRequestExtensions.fromRequest exts with
      | panic => exact absurd hfr hnp
      | ok _ => exact fin
      | err _ => exact fin
    cases hcc : env.config.clientCert with
    | none =>
      rw [hcc] at ha hcm
      simp only [] at ha hcm
      have hcm' : cm = Tls13.handshakeMessage 11#8 (beBytes 1 context'.length ++ context' ++ [0#8, 0#8, 0#8, 2#8, 0#8, 0#8]) := by
        rw [hcm, toBytes_eq, n1]; rfl
      rw [← hcm'] at ha
      subst ha
      refine ⟨w1, p1, s1, .serverCertificate, start _ ?_, a2, a3, a4, a5, a6, by simp, by simp; omega⟩
      unfold sendCertificateVerify
      rw [hcc]
      simp only [List.flatten_cons, List.flatten_nil, List.append_nil]
      rfl
    | some c =>
      rw [hcc] at ha hcm
      simp only [] at ha hcm
      obtain ⟨key, sig, cm', der, c1, c2, c3, c4, rfl⟩ := ha
      have : cm' = cm := by
        rw [hcm, toBytes_eq, c2, ← n1, ← C70_built]
        simp only [Certificate.getCertificateForHandshake, List.append_assoc, List.nil_append]
        rfl
      subst this
      obtain ⟨w2, p2, s2, b1, b2, b3, b4, b5, b6⟩ := sendVerify_of hx (h := { h with stream := s1, tshash := some (ts x.t (m ++ cm')) }) (m := m ++ cm') hcc c1 c3 c4 rfl
        (by rw [List.length_append]; omega) a2 a5 a6 (by omega)
      have hder : der.length ≤ 100 := by
        obtain ⟨_, der', _, _, q1, q2⟩ := ServerProof.cvBody_inv .client (by rw [List.length_append]; omega) (cvBody_of .client (by rw [List.length_append]; omega) c3 c4)
        have := congrArg List.length q1
        simp only [Tls13.certificateVerifyMessage, List.length_append, beBytes_length] at this
        omega
      refine ⟨w1 ++ w2, p2, s2, .serverCertificate, start _ ?_, b2, ?_, ?_, b5, b6, by simp, ?_⟩
      · refine (Step.bind_of_ok b1).trans ?_
        simp only [List.flatten_cons, List.flatten_nil, List.append_nil, List.append_assoc]
        rfl
      · have := sent_append _ _ _ _ _ 0 _ _ a3 b3
        simpa using this
      · rw [b4]
        change out s1 ++ w2 = _
        rw [a4, List.append_assoc]
      · simp only [List.flatten_cons, List.flatten_nil, List.append_nil, List.length_append, Tls13.handshakeMessage, Tls13.certificateVerifyMessage, beBytes_length,
          List.length_cons, List.length_nil]
        omega

/-- The state after the server's Finished; `messages`: the transcript through the server's Finished, `w`: what had been written before. -/
structure Finished (x : Params) (messages w : Bytes) (auth : List Bytes) (k : ClientHandshake) : Prop where
  state : k.state = .ready
  sent : ∃ cwire, Tls13.Sent (aead x.c) (x.sess.key .client) (x.sess.iv .client) 0 (auth ++ [x.sess.finished .client (messages ++ auth.flatten)]) cwire ∧
    out k.stream = w ++ cwire
  prot : ∃ p, k.stream.protection = some p ∧ p.cipher = x.c ∧ RecProof.wKey p = x.appKey messages .client ∧ RecProof.rKey p = x.appKey messages .server ∧
    p.isClient = true

/-- The server's Finished message. -/
def finMsg (x : Params) (m : Bytes) : Msg := (.finished, Tls13.verifyData (rfcHash x.t) (x.sess.secret .server) ((rfcHash x.t).H m))

theorem finMsg_raw (x : Params) (m : Bytes) : (finMsg x m).raw = x.sess.finished .server m := rfl

theorem finish_of {env : ClientEnv} {x : Params} (hx : x.Ok) {h : ClientHandshake} {p : RecordPayloadProtection} {nr : Nat} {m : Bytes} {auth : List Bytes}
    {request : Option Bytes} (hst : h.state = .finished) (hp : h.stream.protection = some p) (hk : HsProt x true p 0 nr) (hcalm : Calm h.stream)
    (ht : h.tshash = some (ts x.t m)) (hm : m.length < 2 ^ 51) (hreq : h.certificateRequest = request)
    (ha : ClientAnswer env x (m ++ x.sess.finished .server m) request auth) (hr : ∀ b, request = some b → ReadableRequest b)
    (hcl : ∀ c, env.config.clientCert = some c → c.raw.length + 400 ≤ 2 ^ 24) :
    ∃ h', handleMessage env (finMsg x m).hs h = (.ok (), h') ∧ Finished x (m ++ x.sess.finished .server m) (out h.stream) auth h' := by
  have hfl := finished_le x .server m (by omega)
  obtain ⟨T, hT⟩ : ∃ T, T = m ++ x.sess.finished .server m := ⟨_, rfl⟩
  have hTl : T.length < 2 ^ 52 := by rw [hT, List.length_append]; omega
  rw [← hT] at ha ⊢
  have hks : p.keySchedule.serverHandshakeTrafficSecret = ⟨x.t, x.sess.secret .server⟩ := by rw [hk.ks]; rfl
  have hv := verify_data x .server m (by omega)
  rw [← hks] at hv
  obtain ⟨w1, p1, s1, st, a1, a2, a3, a4, a5, a6, a7, a8⟩ := answer_of hx (h := { h with tshash := some (ts x.t T) }) hreq ha hr rfl hTl hcl hcalm hp hk
  have hks' : p1.keySchedule.clientHandshakeTrafficSecret = ⟨x.t, x.sess.secret .client⟩ := by rw [a6.ks]; rfl
  have hml : (T ++ auth.flatten).length < 2 ^ 53 := by rw [List.length_append]; omega
  have hfm := finished_message x .client (T ++ auth.flatten) hml
  have hfl' := finished_le x .client (T ++ auth.flatten) hml
  rw [← hks'] at hfm
  obtain ⟨w2, p2, s2, b1, b2, b3, b4, b5, b6⟩ := write_hs_of hx (h := { h with stream := s1, tshash := some (ts x.t (T ++ auth.flatten)), state := st })
    (m := x.sess.finished .client (T ++ auth.flatten)) a2 a5 a6 (by omega) (by omega)
  obtain ⟨s3, c1, c2⟩ := flush_calm b2
  obtain ⟨d1, d2, d3, d4⟩ := flush_ok c1
  obtain ⟨p', g⟩ := generate_of hx b6 T
  obtain ⟨k1, k2, k3, k4, k5⟩ := generate_app hx b6 (by omega) g
  obtain ⟨l, hlog⟩ := logApp_of p' { h with stream := s3.setProtection (some p'), tshash := some (ts x.t (T ++ auth.flatten)), state := st }
  refine ⟨{ h with stream := s3.setProtection (some p'), tshash := some (ts x.t (T ++ auth.flatten)), state := .ready, logged := l }, ?_, rfl, ⟨w1 ++ w2, ?_, ?_⟩, p', rfl, k3, k1, k2, k4⟩
  · unfold handleMessage
    rw [Step.bind_get, hst]
    simp only []
    unfold handleServerFinish
    rw [Step.bind_get, if_neg (by simp [Msg.hs, finMsg])]
    refine (Step.bind_of_ok (protection_of hp)).trans ?_
    refine (Step.bind_of_ok (tshash_of ht)).trans ?_
    refine (Step.bind_lift_ok hv _ _).trans ?_
    rw [hst]
    simp only []
    rw [if_neg (by simp [Msg.hs, finMsg])]
    refine (Step.bind_of_ok (update_of ht _)).trans ?_
    have hu : (ts x.t m).update (finMsg x m).hs.raw = ts x.t T := by rw [ts_update, hT]; rfl
    rw [hu]
    refine (Step.bind_of_ok (tshash_of (t := ts x.t T) rfl)).trans ?_
    refine (Step.bind_of_ok a1).trans ?_
    refine (Step.bind_of_ok (protection_of (p := p1) a5)).trans ?_
    refine (Step.bind_of_ok (tshash_of (t := ts x.t (T ++ auth.flatten)) rfl)).trans ?_
    refine (Step.bind_lift_ok hfm _ _).trans ?_
    refine (Step.bind_of_ok b1).trans ?_
    have hfl : onStream TlsStream.flush { h with stream := s2, tshash := some (ts x.t (T ++ auth.flatten)), state := st } =
        (.ok (), { h with stream := s3, tshash := some (ts x.t (T ++ auth.flatten)), state := st }) := by
      unfold onStream
      simp only [c1]
    refine (Step.bind_of_ok hfl).trans ?_
    refine (Step.bind_of_ok (protection_of (p := p2) (by rw [← b5]; exact d3))).trans ?_
    refine (Step.bind_lift_ok g _ _).trans ?_
    unfold setProtection
    rw [Step.bind_modify]
    refine (Step.bind_of_ok hlog).trans ?_
    rfl
  · exact sent_append _ _ _ _ _ 0 _ _ a3 (by rw [Nat.zero_add]; exact b3)
  · change out s3 = _
    rw [d1]
    change out s2 = _
    rw [b4]
    change out s1 ++ w2 = _
    rw [a4, List.append_assoc]

/-! ### The whole handshake -/

/-- The bodies of the server's messages. -/
structure Script where
  ee : Bytes
  requests : List Bytes
  certificate : Bytes
  verify : Bytes

/-- The messages through CertificateVerify. -/
def Script.shown (S : Script) : Bytes := opening S.ee S.requests ++ Msg.raw (.certificate, S.certificate) ++ Msg.raw (.certificateVerify, S.verify)

/-- The messages after the requests. -/
def Script.last (S : Script) (x : Params) : List Msg := [(.certificate, S.certificate), (.certificateVerify, S.verify), finMsg x (x.hellos ++ S.shown)]

def Script.msgs (S : Script) (x : Params) : List Msg :=
  (.encryptedExtensions, S.ee) :: (S.requests.map (fun b => ((.certificateRequest, b) : Msg)) ++ S.last x)

/-- The messages `rem` are still to come. -/
def Pending (S : Script) (x : Params) (cert : Certificate) (w : Bytes) (nr : Nat) (rem : List Msg) (h : ClientHandshake) : Prop :=
  ∃ p, h.stream.protection = some p ∧ HsProt x true p 0 nr ∧ Calm h.stream ∧ out h.stream = w ∧
    ((h.state = .encryptedExtensions ∧ h.tshash = some (ts x.t x.hellos) ∧ h.certificateRequest = none ∧ rem = S.msgs x) ∨
    (∃ done todo, S.requests = done ++ todo ∧ (h.state = .clientCertificateRequest ∨ h.state = .serverCertificate) ∧
      h.tshash = some (ts x.t (x.hellos ++ opening S.ee done)) ∧ h.certificateRequest = done.getLast? ∧
      rem = todo.map (fun b => ((.certificateRequest, b) : Msg)) ++ S.last x) ∨
    (h.state = .serverCertificateVerify ∧ h.tshash = some (ts x.t (x.hellos ++ (opening S.ee S.requests ++ Msg.raw (.certificate, S.certificate)))) ∧ h.serverCert = some cert ∧
      h.certificateRequest = S.requests.getLast? ∧ rem = [(.certificateVerify, S.verify), finMsg x (x.hellos ++ S.shown)]) ∨
    (h.state = .finished ∧ h.tshash = some (ts x.t (x.hellos ++ S.shown)) ∧ h.certificateRequest = S.requests.getLast? ∧
      rem = [finMsg x (x.hellos ++ S.shown)]))

theorem Pending.state {S : Script} {x : Params} {cert : Certificate} {w : Bytes} {nr : Nat} {rem : List Msg} {h : ClientHandshake} (hp : Pending S x cert w nr rem h) :
    h.state ≠ .serverHello ∧ h.state ≠ .ready := by
  obtain ⟨_, _, _, _, _, h | ⟨_, _, _, h | h, _⟩ | h | h⟩ := hp
  · rw [h.1]; decide
  · rw [h]; decide
  · rw [h]; decide
  · rw [h.1]; decide
  · rw [h.1]; decide

/-- What the proof needs to know about the script. -/
structure Script.Fine (S : Script) (env : ClientEnv) (x : Params) (cert : Certificate) (auth : List Bytes) : Prop where
  presented : Certificate.fromHello env.now S.certificate = .ok [cert]
  verified : Verified cert .server (ts x.t (x.hellos ++ (opening S.ee S.requests ++ Msg.raw (.certificate, S.certificate)))) S.verify
  small : S.verify.length < 2 ^ 16
  short : (x.hellos ++ S.shown).length < 2 ^ 51
  answer : ClientAnswer env x (x.hellos ++ S.shown ++ x.sess.finished .server (x.hellos ++ S.shown)) S.requests.getLast? auth
  readable : ∀ b, S.requests.getLast? = some b → ReadableRequest b
  own : ∀ c, env.config.clientCert = some c → c.raw.length + 400 ≤ 2 ^ 24

theorem pending_step {S : Script} {env : ClientEnv} {x : Params} (hx : x.Ok) {cert : Certificate} {auth : List Bytes} (hf : S.Fine env x cert auth) {w : Bytes} {nr : Nat}
    {m : Msg} {rem : List Msg} {h : ClientHandshake} (hp : Pending S x cert w nr (m :: rem) h) :
    ∃ h', handleMessage env m.hs h = (.ok (), h') ∧ ((rem ≠ [] ∧ Pending S x cert w nr rem h') ∨
      (rem = [] ∧ Finished x (x.hellos ++ S.shown ++ x.sess.finished .server (x.hellos ++ S.shown)) w auth h')) := by
  obtain ⟨p, h1, h2, h3, h4, hh⟩ := hp
  rcases hh with ⟨q1, q2, q3, q4⟩ | ⟨done, todo, q1, q2, q3, q4, q5⟩ | ⟨q1, q2, q3, q4, q5⟩ | ⟨q1, q2, q3, q4⟩
  · obtain ⟨rfl, rfl⟩ := List.cons.inj q4
    refine ⟨_, extensions_of q1 q2, .inl ⟨by simp [Script.last], p, h1, h2, h3, h4, .inr (.inl ⟨[], S.requests, rfl, .inl rfl, ?_, q3, rfl⟩)⟩⟩
    simp [opening, Msg.raw, HandshakeType.code]
  · cases todo with
    | cons b todo =>
      rw [List.map_cons, List.cons_append] at q5
      obtain ⟨rfl, rfl⟩ := List.cons.inj q5
      refine ⟨_, request_of q2 q3, .inl ⟨by simp [Script.last], p, h1, h2, h3, h4, .inr (.inl ⟨done ++ [b], todo, by rw [q1]; simp, .inr rfl, ?_, by simp, rfl⟩)⟩⟩
      rw [List.append_assoc, show Msg.raw (.certificateRequest, b) = Tls13.handshakeMessage 13#8 b from rfl, opening_snoc]
    | nil =>
      rw [List.append_nil] at q1
      subst q1
      rw [List.map_nil, List.nil_append] at q5
      obtain ⟨rfl, rfl⟩ := List.cons.inj q5
      refine ⟨_, certificate_of q2 q3 hf.presented, .inl ⟨by simp, p, h1, h2, h3, h4, .inr (.inr (.inl ⟨rfl, ?_, rfl, q4, rfl⟩))⟩⟩
      rw [List.append_assoc]
  · obtain ⟨rfl, rfl⟩ := List.cons.inj q5
    refine ⟨_, certificateVerify_of q1 q2 q3 hf.small hf.verified, .inl ⟨by simp, p, h1, h2, h3, h4, .inr (.inr (.inr ⟨rfl, ?_, q4, rfl⟩))⟩⟩
    rw [List.append_assoc]
    rfl
  · obtain ⟨rfl, rfl⟩ := List.cons.inj q4
    obtain ⟨h', g1, g2⟩ := finish_of hx q1 h1 h2 h3 q2 hf.short q3 hf.answer hf.readable hf.own
    rw [h4] at g2
    exact ⟨h', g1, .inr ⟨rfl, g2⟩⟩

theorem told_step {S : Script} {env : ClientEnv} {x : Params} (hx : x.Ok) {cert : Certificate} {auth : List Bytes} (hf : S.Fine env x cert auth) {w : Bytes} {nr : Nat} :
    ∀ (g : List Msg) (rem : List Msg) (h : ClientHandshake), g ++ rem ≠ [] → Pending S x cert w nr (g ++ rem) h →
    ∃ h', told env g h = (.ok (), h') ∧ ((rem ≠ [] ∧ Pending S x cert w nr rem h') ∨
      (rem = [] ∧ Finished x (x.hellos ++ S.shown ++ x.sess.finished .server (x.hellos ++ S.shown)) w auth h'))
  | [], rem, h, hn, hp => ⟨h, rfl, .inl ⟨hn, hp⟩⟩
  | m :: g, rem, h, _, hp => by
    obtain ⟨h1, e1, hh⟩ := pending_step hx hf hp
    rcases hh with ⟨hn, hq⟩ | ⟨hn, hq⟩
    · obtain ⟨h', e2, hh⟩ := told_step hx hf g rem h1 hn hq
      exact ⟨h', (Step.bind_of_ok e1).trans e2, hh⟩
    · obtain ⟨rfl, rfl⟩ := List.append_eq_nil_iff.1 hn
      exact ⟨h1, Step.bind_of_ok e1, .inr ⟨rfl, hq⟩⟩

/-- One record. -/
theorem feed_of {env : ClientEnv} {w : Bytes} {ws : List Bytes} {n : Nat} {r : Record} {h h' : ClientHandshake} (h1 : Record.fromRaw w = .ok (n, r))
    (h2 : handleRecord env r h = (.ok (), h')) : feed env (w :: ws) h = feed env ws h' := by
  rw [feed, Step.bind_lift_ok h1]
  exact Step.bind_of_ok h2

theorem groups_feed {S : Script} {env : ClientEnv} {x : Params} (hx : x.Ok) {cert : Certificate} {auth : List Bytes} (hf : S.Fine env x cert auth) {w : Bytes} :
    ∀ (groups : List (List Msg)) (ws : List Bytes) (nr : Nat) (h : ClientHandshake), groups.flatten ≠ [] → (∀ g ∈ groups, g ≠ []) → nr + groups.length < 2 ^ 63 →
    Plain (aead x.c) (x.sess.key .server) (x.sess.iv .server) nr (groups.map fun g => (g.map Msg.raw).flatten) ws → Pending S x cert w nr groups.flatten h →
    ∃ h', feed env ws h = (.ok (), h') ∧ Finished x (x.hellos ++ S.shown ++ x.sess.finished .server (x.hellos ++ S.shown)) w auth h' ∧
      ∀ ws1 ws2, ws = ws1 ++ ws2 → ws2 ≠ [] → ∃ k, feed env ws1 h = (.ok (), k) ∧ out k.stream = w ∧ k.state ≠ .ready
  | [], ws, nr, h, hn, _, _, _, _ => absurd rfl hn
  | g :: groups, ws, nr, h, hn, hg, hl, hpl, hp => by
    rw [List.length_cons] at hl
    obtain ⟨v, rest, rfl, hv, hpl⟩ := hpl
    obtain ⟨hs1, hs2⟩ := hp.state
    obtain ⟨p, h1, h2, h3, h4, hh⟩ := hp
    obtain ⟨r, p', e1, e2, e3⟩ := encrypted_of (env := env) hx h1 h2 (by omega) hv hs1 hs2
    have hp' : Pending S x cert w (nr + 1) (g ++ groups.flatten) { h with stream := h.stream.setProtection (some p') } := ⟨p', rfl, e2, h3, h4, hh⟩
    obtain ⟨k, e4, hh⟩ := told_step hx hf g groups.flatten _ hn hp'
    rw [e4] at e3
    have hstart : ∃ k, feed env [] h = (.ok (), k) ∧ out k.stream = w ∧ k.state ≠ .ready := ⟨h, rfl, h4, hs2⟩
    rcases hh with ⟨hn', hk⟩ | ⟨hn', hk⟩
    · obtain ⟨h', f1, f2, f3⟩ := groups_feed hx hf groups rest (nr + 1) k hn' (fun g hg' => hg g (List.mem_cons_of_mem _ hg')) (by omega) hpl hk
      refine ⟨h', (feed_of e1 e3).trans f1, f2, ?_⟩
      intro ws1 ws2 he hne
      cases ws1 with
      | nil => exact hstart
      | cons v' ws1 =>
        obtain ⟨rfl, rfl⟩ := List.cons.inj he
        obtain ⟨k', f4, f5⟩ := f3 ws1 ws2 rfl hne
        exact ⟨k', (feed_of e1 e3).trans f4, f5⟩
    · have : groups = [] := by
        cases groups with
        | nil => rfl
        | cons g' gs =>
          rw [List.flatten_cons] at hn'
          exact absurd (List.append_eq_nil_iff.1 hn').1 (hg g' (by simp))
      subst this
      have hpl : rest = [] := hpl
      subst hpl
      refine ⟨k, feed_of e1 e3, hk, ?_⟩
      intro ws1 ws2 he hne
      cases ws1 with
      | nil => exact hstart
      | cons v' ws1 =>
        have := (List.cons.inj he).2
        exact absurd (List.append_eq_nil_iff.1 this.symm).2 hne

/-- Records after the handshake is complete are ignored, except alerts. -/
theorem feed_tail (env : ClientEnv) : ∀ (ws : List Bytes) (h : ClientHandshake), h.state = .ready → (∀ w ∈ ws, ∃ t c, t ∈ [20#8, 22#8, 23#8] ∧ Tls13.IsRecord t c w) →
    feed env ws h = (.ok (), h)
  | [], h, _, _ => rfl
  | w :: ws, h, hr, hw => by
    obtain ⟨t, c, ht, v1, v2, hl, he⟩ := hw w List.mem_cons_self
    have key : ∀ t' : RecordType, t'.code = t → t' ≠ .alert → feed env (w :: ws) h = (.ok (), h) := by
      intro t' h1 h2
      have := RecProof.fromRaw_header t' v1 v2 c [] hl
      rw [h1, List.append_nil] at this
      refine (feed_of (h' := h) (by rw [he, RecProof.beBytes2]; exact this) ?_).trans (feed_tail env ws h hr fun v hv => hw v (List.mem_cons_of_mem _ hv))
      unfold handleRecord
      rw [Step.bind_get, hr]
      cases t' <;> first | rfl | exact absurd rfl h2
    simp only [List.mem_cons, List.not_mem_nil, or_false] at ht
    rcases ht with rfl | rfl | rfl
    · exact key .changeCipherSpec rfl (by decide)
    · exact key .handshake rfl (by decide)
    · exact key .applicationData rfl (by decide)

theorem groups_le : ∀ (groups : List (List Msg)), (∀ g ∈ groups, g ≠ []) → groups.length ≤ groups.flatten.length
  | [], _ => by simp
  | g :: gs, h => by
    have h1 := groups_le gs fun g' hg => h g' (List.mem_cons_of_mem _ hg)
    have h2 : g.length ≠ 0 := fun he => h g (by simp) (List.length_eq_zero_iff.1 he)
    rw [List.flatten_cons, List.length_append, List.length_cons]
    omega

theorem requests_le (ee : Bytes) (requests : List Bytes) : requests.length ≤ (opening ee requests).length := by
  have := length_le (requests.map fun b => ((.certificateRequest, b) : Msg))
  rw [List.length_map, List.map_map] at this
  have h2 : (requests.map (Tls13.handshakeMessage 13#8)).flatten.length = ((requests.map (Msg.raw ∘ fun b => ((.certificateRequest, b) : Msg))).flatten).length := rfl
  unfold opening
  rw [List.length_append, h2]
  omega

/-- A conforming server's records take the client to the end of the handshake. -/
theorem client_feed {env : ClientEnv} {rng : List Bytes} {n : Int} {ch sh shRec : Bytes} {x : Params} {S : Script} {cert : Certificate} {auth records tail : List Bytes}
    {groups : List (List Msg)} (ho : Offered env rng n ch) (ha : ServerAnswered x n ch sh) (hrec : Tls13.IsRecord 22#8 sh shRec) (hf : S.Fine env x cert auth)
    (hg : groups.flatten = S.msgs x) (hne : ∀ g ∈ groups, g ≠ [])
    (hr : Tls13.ProtectedFlight (aead x.c) (x.sess.key .server) (x.sess.iv .server) 0 (groups.map fun g => (g.map Msg.raw).flatten) records)
    (htail : ∀ w ∈ tail, ∃ t c, t ∈ [20#8, 22#8, 23#8] ∧ Tls13.IsRecord t c w) :
    ∃ g k0 k, ((Rng.urandom rng).between 1 32 : Res TlsError (Int × Rng)) = .ok (n, g) ∧ sendClientHello env (first n g) = (.ok (), k0) ∧ x.Ok ∧
      groups.length < 2 ^ 60 ∧ out k0.stream = Tls13.plainRecord 22#8 ch ∧ k0.state ≠ .ready ∧ feed env (shRec :: (records ++ tail)) k0 = (.ok (), k) ∧
      Finished x (x.hellos ++ S.shown ++ x.sess.finished .server (x.hellos ++ S.shown)) (Tls13.plainRecord 22#8 ch) auth k := by
  obtain ⟨g, rng', random, hb, hsend⟩ := hello_of ho
  obtain ⟨k0, hk0⟩ : ∃ k0 : ClientHandshake, k0 = { first n g with
        rng := rng', clientHelloRandom := some random, clientHelloBytes := some ch
        stream := { TlsStream.new ⟨[], [], []⟩ with stream := ⟨[], [], Tls13.plainRecord 22#8 ch⟩ } } := ⟨_, rfl⟩
  rw [← hk0] at hsend
  have hout : out k0.stream = Tls13.plainRecord 22#8 ch := by rw [hk0]; simp [out, TlsStream.new]
  have hst : k0.state = .serverHello := by rw [hk0]; rfl
  have hgl : groups.length < 2 ^ 60 := by
    have h1 := groups_le groups hne
    have h2 : (S.msgs x).length = S.requests.length + 4 := by simp [Script.msgs, Script.last]
    have h3 := requests_le S.ee S.requests
    have h4 := hf.short
    rw [hg, h2] at h1
    unfold Script.shown at h4
    simp only [List.length_append] at h4
    omega
  obtain ⟨v1, v2, hshl, rfl⟩ := hrec
  have hraw := RecProof.fromRaw_header .handshake v1 v2 sh [] hshl
  rw [List.append_nil] at hraw
  rw [RecProof.beBytes2]
  obtain ⟨record, hrecord⟩ : ∃ record : Record, record = ⟨.handshake, v1.toNat * 256 + v2.toNat, sh.length,
    [RecordType.handshake.code, v1, v2, BitVec.ofNat 8 (sh.length / 256), BitVec.ofNat 8 sh.length], sh⟩ := ⟨_, rfl⟩
  rw [← hrecord] at hraw
  have hfrag : record.fraqment = sh := by rw [hrecord]
  obtain ⟨p, kl, lg, e1, hx, hprot⟩ := serverHello_of (env := env) (h := k0) (record := record) (random := random) (by rw [hfrag]; exact ha) (by rw [hk0]) (by rw [hk0])
    (by have := hf.short; rw [List.length_append] at this; omega) (by rw [hk0]; rfl)
  obtain ⟨k1, hk1⟩ : ∃ k1 : ClientHandshake, k1 = { k0 with
        stream := k0.stream.setProtection (some p), tshash := some (ts x.t x.hellos), state := .encryptedExtensions, keylog := kl, logged := lg } := ⟨_, rfl⟩
  rw [← hk1] at e1
  have hh : handleRecord env record k0 = (.ok (), k1) := by
    unfold handleRecord
    rw [Step.bind_get, hst, hrecord]
    simp only []
    rw [if_neg (by decide), ← hrecord]
    exact e1
  have hpend : Pending S x cert (Tls13.plainRecord 22#8 ch) 0 groups.flatten k1 := by
    refine ⟨p, by rw [hk1]; rfl, hprot, ?_, ?_, .inl ⟨by rw [hk1], by rw [hk1], ?_, hg⟩⟩
    · rw [hk1, hk0]; rfl
    · rw [hk1]; exact hout
    · rw [hk1, hk0]; rfl
  obtain ⟨ws, hi, hpl⟩ := plain_of hr
  obtain ⟨k, f1, f2, _⟩ := groups_feed hx hf groups ws 0 k1 (by rw [hg]; simp [Script.msgs]) hne (by omega) hpl hpend
  refine ⟨g, k0, k, hb, hsend, hx, hgl, hout, by rw [hst]; decide, ?_, f2⟩
  refine (feed_of hraw hh).trans ?_
  rw [feed_append]
  have h5 := feed_ccs env hi k1 (by unfold Begun; rw [hk1]; simp)
  rw [f1] at h5
  exact (Step.bind_of_ok h5).trans (feed_tail env tail k f2.state htail)

end ATLS.ClientProof
