import Verif.Props.ClientDefs
import Verif.Proof.Server
/-
The client's state machine: what a completed handshake looks like on the wire.
-/
namespace ATLS
open ATLS.Model ATLS.Spec FlowProof

namespace ClientProof
open ClientHandshake RecProof

theorem onStream_ok {α : Type} {f : TlsStream → Res TlsError α × TlsStream} {h h' : ClientHandshake} {a : α} (hw : onStream f h = (.ok a, h')) :
    ∃ s, f h.stream = (.ok a, s) ∧ h' = { h with stream := s } := by
  unfold onStream at hw
  rcases hf : f h.stream with ⟨r, s⟩
  rw [hf] at hw
  simp only [] at hw
  have h1 := (Prod.mk.inj hw).1
  subst h1
  exact ⟨s, rfl, (Prod.mk.inj hw).2.symm⟩

theorem write_hs {x : Params} {h h' : ClientHandshake} {p : RecordPayloadProtection} {nw nr : Nat} {m : Bytes}
    (hw : writeRecord .handshake m h = (.ok (), h'))
    (hp : h.stream.protection = some p) (hk : HsProt x true p nw nr) (hn : nw < 2 ^ 63) :
    ∃ wire p' s, h' = { h with stream := s } ∧ Tls13.Sent (aead x.c) (x.sess.key .client) (x.sess.iv .client) nw [m] wire ∧
      out s = out h.stream ++ wire ∧ s.protection = some p' ∧ HsProt x true p' (nw + 1) nr ∧
      s.stream.incoming = h.stream.stream.incoming := by
  unfold writeRecord at hw
  obtain ⟨s, hs, h2⟩ := onStream_ok hw
  obtain ⟨wire, p', e1, e2, e3, e4⟩ := write_prot hp hs
  obtain ⟨e5, e6⟩ := encrypt_sent hk hn e1
  exact ⟨wire, p', s, h2, e5, e2, e3, e6, e4⟩

theorem protection_ok {h h' : ClientHandshake} {p q : RecordPayloadProtection} (hw : getProtection h = (.ok q, h')) (hp : h.stream.protection = some p) :
    q = p ∧ h' = h := by
  unfold getProtection at hw
  rw [hp] at hw
  cases hw
  exact ⟨rfl, rfl⟩

theorem tshash_ok {h h' : ClientHandshake} {t y : TsHash} (hw : getTshash h = (.ok y, h')) (ht : h.tshash = some t) : y = t ∧ h' = h := by
  unfold getTshash at hw
  rw [ht] at hw
  cases hw
  exact ⟨rfl, rfl⟩

theorem update_ok {h h' : ClientHandshake} {t : TsHash} {b : Bytes} (hw : updateTshash b h = (.ok (), h')) (ht : h.tshash = some t) :
    h' = { h with tshash := some (t.update b) } := by
  unfold updateTshash at hw
  sbind hw with ⟨y, h1, e1, hw⟩
  obtain ⟨rfl, rfl⟩ := tshash_ok e1 ht
  exact Step.modify_ok.1 hw

theorem log_ok {env : ClientEnv} {p : Option RecordPayloadProtection} {h h' : ClientHandshake}
    (hw : logHandshakeSecrets env p h = (.ok (), h')) : ∃ k l, h' = { h with keylog := k, logged := l } ∧
      ∀ q r, p = some q → h.clientHelloRandom = some r → h.keylog = none → h.logged = [] → k = env.config.keylog.map (KeyLog.new · r) ∧
        l = env.config.keylog.toList.map fun f => (KeyLog.new f r).handshakeTrafficSecrets q.handshakeKeys.server.trafficSecret q.handshakeKeys.client.trafficSecret := by
  unfold logHandshakeSecrets at hw
  cases hk : env.config.keylog with
  | none =>
    rw [hk] at hw
    obtain ⟨_, rfl⟩ := Step.pure_ok.1 hw
    exact ⟨_, _, rfl, fun q r _ _ h1 h2 => ⟨by rw [h1]; rfl, by rw [h2]; rfl⟩⟩
  | some f =>
    cases p with
    | none =>
      rw [hk] at hw
      obtain ⟨_, rfl⟩ := Step.pure_ok.1 hw
      exact ⟨_, _, rfl, fun q r hq => by cases hq⟩
    | some p =>
      rw [hk] at hw
      simp only [] at hw
      rw [Step.bind_get] at hw
      slift hw with ⟨r, e1, hw⟩
      refine ⟨_, _, Step.modify_ok.1 hw, fun q r' hq hr _ h2 => ?_⟩
      cases hq
      rw [hr] at e1
      cases e1
      exact ⟨rfl, by rw [h2]; rfl⟩

theorem logApp_ok {p : RecordPayloadProtection} {h h' : ClientHandshake} (hw : logApplicationSecrets p h = (.ok (), h')) :
    ∃ l, h' = { h with logged := l } ∧ l = h.logged ++ h.keylog.toList.map (·.fromProtection p) := by
  unfold logApplicationSecrets at hw
  cases hk : h.keylog with
  | none =>
    rw [hk] at hw
    refine ⟨h.logged, ?_, by simp⟩
    rw [← hk]
    exact (Prod.mk.inj hw).2.symm
  | some k => rw [hk] at hw; exact ⟨_, (Prod.mk.inj hw).2.symm, rfl⟩

/-! ### The ClientHello -/

theorem offer_le (random sid share : Bytes) (name : Option Bytes) (hr : random.length = 32) (hs : sid.length = 32) (hsh : share.length = 32)
    (hn : ∀ n, name = some n → n.length < 2 ^ 24) : (Tls13.clientOffer random sid share name).bytes.length < 2 ^ 25 := by
  have := HelloProof.offer_length random sid share name hsh
  obtain ⟨l, hl⟩ : ∃ l, l = ((Tls13.clientOffer random sid share name).exts.map Tls13.ClientExt.bytes).flatten := ⟨_, rfl⟩
  have hle : l.length < 2 ^ 24 + 100 := by
    rw [hl, this]
    cases name with
    | none => simp
    | some n => have := hn n rfl; simp only; omega
  unfold Tls13.ClientHelloMsg.bytes
  rw [← hl]
  have hu : (Tls13.u16s [0x1302, 0x1301, 0x1303]).length = 6 := by decide
  simp only [Tls13.clientOffer, Tls13.vec2, List.length_append, beBytes_length, List.length_cons, List.length_nil, hr, hs, hu]
  omega

theorem offer_random (random sid share : Bytes) (name : Option Bytes) (sh : Bytes) (hr : random.length = 32) :
    ((Tls13.handshakeMessage 1#8 (Tls13.clientOffer random sid share name).bytes ++ sh).drop 6).take 32 = random := by
  obtain ⟨b, hb⟩ : ∃ b, b = (Tls13.clientOffer random sid share name).bytes := ⟨_, rfl⟩
  obtain ⟨tail, ht⟩ : ∃ tail, b = beBytes 2 0x0303 ++ random ++ tail := by
    rw [hb]
    unfold Tls13.ClientHelloMsg.bytes Tls13.clientOffer
    simp only [List.append_assoc]
    exact ⟨_, rfl⟩
  rw [← hb]
  have e : Tls13.handshakeMessage 1#8 b ++ sh = ([1#8] ++ beBytes 3 b.length ++ beBytes 2 0x0303) ++ (random ++ (tail ++ sh)) := by
    unfold Tls13.handshakeMessage
    simp only [List.append_assoc]
    congr 2
    rw [ht]
    simp only [List.append_assoc]
  rw [e, List.drop_append_of_le_length (by simp), List.drop_of_length_le (by simp), List.nil_append, ← hr, List.take_left]

theorem between_bounds {reads : List Bytes} {n : Int} {rng : Rng} (h : ((Rng.urandom reads).between 1 32 : Res TlsError (Int × Rng)) = .ok (n, rng)) :
    0 ≤ n ∧ n < 2 ^ 256 ∧ ∃ r, rng = .urandom r := by
  unfold Rng.between at h
  simp only [] at h
  obtain ⟨⟨v, rd⟩, h1, h⟩ := Res.bind_eq_ok.1 h
  split_ifs at h with hc
  have h := Prod.mk.inj (Res.ok.inj h)
  obtain ⟨m, hm⟩ : ∃ m : Int, m = 2 ^ (32 * 8) - 2 ^ (1 * 8) := ⟨_, rfl⟩
  have hmv : m + 2 ^ (1 * 8) = 2 ^ 256 := by rw [hm]; norm_num
  have hpos : 0 < m := by rw [hm]; norm_num
  rw [← hm] at h
  have h1 := Int.tmod_lt_of_pos (v : Int) hpos
  have h2 := Int.tmod_nonneg m (Int.natCast_nonneg v)
  refine ⟨?_, ?_, rd, h.2.symm⟩
  · rw [← h.1]; positivity
  · rw [← h.1, ← hmv]; exact Int.add_lt_add_right h1 _

theorem hello_ok {env : ClientEnv} {reads : List Bytes} {n : Int} {h h' : ClientHandshake}
    (hw : sendClientHello env h = (.ok (), h')) (hr : ((Rng.urandom reads).between 1 32 : Res TlsError (Int × Rng)) = .ok (n, h.rng))
    (hk : h.privateKey = ⟨.curve25519, n⟩) (hn : ∀ n, env.config.serverName = some n → n.length < 2 ^ 24) (hb : h.stream.buffer = []) :
    ∃ ch k, Offered env reads n ch ∧ ch.length < 2 ^ 26 ∧ out h'.stream = out h.stream ++ (Tls13.plainRecord 22#8 ch).take k ∧
      (h.stream.stream.failures = [] → k = (Tls13.plainRecord 22#8 ch).length) ∧ 
      h'.clientHelloBytes = some ch ∧ h'.privateKey = h.privateKey ∧ h'.certificateRequest = h.certificateRequest ∧ h'.state = h.state ∧
      h'.stream.protection = h.stream.protection ∧ h'.stream.buffer = [] ∧ h'.stream.stream.incoming = h.stream.stream.incoming ∧
      h'.keylog = h.keylog ∧ h'.logged = h.logged ∧ ∀ sh, h'.clientHelloRandom = some (((ch ++ sh).drop 6).take 32) := by
  unfold sendClientHello at hw
  rw [Step.bind_get] at hw
  slift hw with ⟨⟨random, rng2⟩, e1, hw⟩
  simp only [] at hw
  slift hw with ⟨⟨sid, rng3⟩, e2, hw⟩
  simp only [] at hw
  rw [Step.bind_modify] at hw
  slift hw with ⟨kse, e3, hw⟩
  slift hw with ⟨body, e4, hw⟩
  rw [Step.bind_modify] at hw
  obtain ⟨s, e5, rfl⟩ := onStream_ok hw
  obtain ⟨b1, b2, rd, b3⟩ := between_bounds hr
  obtain ⟨l1, rd2, b4⟩ := ServerProof.rng_bytes_length ⟨rd, b3⟩ e1
  obtain ⟨l2, _⟩ := ServerProof.rng_bytes_length ⟨rd2, b4⟩ e2
  rw [hk, keyShareOf_eq b1 b2] at e3
  cases e3
  rw [C35_rfc_encoding random sid _ _ (by rw [List.length_reverse]; exact publicShare_length n), List.reverse_reverse] at e4
  have e4 := Res.ok.inj e4
  obtain ⟨ch, hch⟩ : ∃ ch, ch = Tls13.handshakeMessage 1#8 (Tls13.clientOffer random sid (publicShare n) env.config.serverName).bytes := ⟨_, rfl⟩
  have hraw : Handshake.toBytes .clientHello body = ch := by rw [toBytes_eq, ← e4, hch]; rfl
  rw [hraw, ServerProof.new_bytes] at e5
  have hlen := offer_le random sid (publicShare n) env.config.serverName l1 l2 (publicShare_length n) hn
  have hfin : ∃ k, (h.stream.stream.failures = [] → k = (Tls13.plainRecord 22#8 ch).length) ∧
      s = { h.stream with stream := { h.stream.stream with written := h.stream.stream.written ++ (Tls13.plainRecord 22#8 ch).take k, failures := s.stream.failures } } := by
    unfold TlsStream.tcpWrite Socket.write at e5
    simp only [] at e5
    cases hf : h.stream.stream.failures with
    | nil =>
      rw [hf] at e5
      simp only [] at e5
      cases e5
      refine ⟨(Tls13.plainRecord 22#8 ch).length, fun _ => rfl, ?_⟩
      simp only [List.take_length]
      rfl
    | cons f fs =>
      rw [hf] at e5
      rcases f with _ | _ | k
      · simp only [] at e5
        cases e5
        refine ⟨(Tls13.plainRecord 22#8 ch).length, fun _ => rfl, ?_⟩
        simp only [List.take_length]
        rfl
      · cases e5
      · simp only [] at e5
        cases e5
        exact ⟨k + 1, by simp, rfl⟩
  obtain ⟨k, hk1, hk2⟩ := hfin
  refine ⟨ch, k, ⟨_, rng2, rng3, random, sid, hr, e1, e2, l1, l2, b1, b2, hch⟩, ?_, ?_, hk1, ?_, rfl, rfl, rfl, ?_, ?_, ?_, rfl, rfl, ?_⟩
  · rw [hch]
    simp only [Tls13.handshakeMessage, List.length_append, beBytes_length, List.length_singleton]
    omega
  · change out s = _
    rw [hk2]
    simp [out, hb]
  · rw [hraw]
  · change s.protection = _
    rw [hk2]
  · change s.buffer = _
    rw [hk2]; exact hb
  · change s.stream.incoming = _
    rw [hk2]
  · intro sh
    change some random = _
    rw [hch, offer_random random sid _ _ sh l1]

/-! ### The ServerHello -/

theorem serverHello_ok {env : ClientEnv} {n : Int} {ch : Bytes} {h h' : ClientHandshake} {record : Record}
    (hw : handleServerHello env record h = (.ok (), h')) (hch : h.clientHelloBytes = some ch) (hl : ch.length < 2 ^ 26)
    (hk : h.privateKey = ⟨.curve25519, n⟩) (hfl : record.fraqment.length < 2 ^ 16) :
    ∃ x p, ServerAnswered x n ch record.fraqment ∧ x.Ok ∧ x.hellos.length < 2 ^ 27 ∧ HsProt x true p 0 0 ∧
      h'.stream = h.stream.setProtection (some p) ∧ h'.tshash = some (ts x.t x.hellos) ∧ h'.state = .encryptedExtensions ∧
      h'.certificateRequest = h.certificateRequest ∧
      ((∀ sh, h.clientHelloRandom = some (((ch ++ sh).drop 6).take 32)) → h.keylog = none → h.logged = [] → Logs env.config.keylog x h'.keylog h'.logged) := by
  unfold handleServerHello at hw
  slift hw with ⟨hs, e1, hw⟩
  split_ifs at hw with hty
  · exact absurd hw Step.throw_ok
  have hty : hs.handshakeType = .serverHello := by simpa using hty
  slift hw with ⟨hello, e2, hw⟩
  slift hw with ⟨t, e3, hw⟩
  rw [Step.bind_get] at hw
  slift hw with ⟨ch', e4, hw⟩
  rw [hch] at e4
  cases e4
  rw [ts_new, ts_update] at hw
  slift hw with ⟨share, e5, hw⟩
  slift hw with ⟨ks, e6, hw⟩
  slift hw with ⟨c, e7, hw⟩
  obtain ⟨secret, i1, i2, i3, i4⟩ := fromHandshake_params (by simp only [List.length_append]; omega) e6 hello.cipherSuite c
  obtain ⟨x, hx⟩ : ∃ x, x = Params.mk t hello.cipherSuite c secret (ch ++ record.fraqment) := ⟨_, rfl⟩
  have hok : x.Ok := ⟨by rw [hx]; exact e7, by rw [hx, i3]; norm_num⟩
  rw [← hx] at i4
  subst i4
  slift hw with ⟨protection, e11, hw⟩
  obtain ⟨w, _, k1, _⟩ := new_ok x.ks c true
  rw [k1] at e11
  have e11 := Res.ok.inj e11
  have hcx : c = x.c := by rw [hx]
  have hprot := new_hsProt hok true (p := ⟨x.ks, c, w, true, none⟩) (by rw [← hcx]; exact k1)
  sbind hw with ⟨u, h3, e12, hw⟩
  obtain ⟨kl, lg, rfl, hlog⟩ := log_ok e12
  unfold setProtection at hw
  rw [Step.bind_modify, Step.bind_modify] at hw
  have hw := Step.modify_ok.1 hw
  subst hw
  refine ⟨x, _, ⟨hs, hello, share, e1, hty, e2, ?_, i1, ?_, ?_, ?_, ?_, ?_⟩, hok, ?_, hprot, ?_, ?_, rfl, rfl, ?_⟩
  · cases hk : hello.getPublicKeyShare with
    | none => rw [hk] at e5; cases e5
    | some v => rw [hk] at e5; cases e5; rfl
  · rw [hx, ← hk]; exact i2
  · rw [hx]
  · rw [hx]; exact e3
  · rw [hx]; exact e7
  · rw [hx]
  · rw [hx]; simp only [List.length_append]; omega
  · rw [← e11]
  · rw [hx]
  · intro hr hkn hl
    obtain ⟨q1, q2⟩ := hlog _ _ e11.symm (hr record.fraqment) hkn hl
    obtain ⟨q3, q4⟩ := hs_secrets hprot rfl
    have hr : ((ch ++ record.fraqment).drop 6).take 32 = x.random := by
      unfold Params.random
      rw [hx]
    rw [hr] at q1 q2
    simp only [] at q3 q4
    exact ⟨q1, by rw [q2]; unfold hsLog; simp only []; rw [q3, q4]⟩

/-! ### The messages of the server -/

theorem fromHello_single {now : Nat} {b : Bytes} {certs : List Certificate} (h : Certificate.fromHello now b = .ok certs) : ∃ cert, certs = [cert] := by
  unfold Certificate.fromHello at h
  obtain ⟨_, _, h⟩ := Res.bind_eq_ok.1 h
  obtain ⟨_, _, h⟩ := Res.bind_eq_ok.1 h
  simp only [] at h
  split_ifs at h
  obtain ⟨_, _, h⟩ := Res.bind_eq_ok.1 h
  obtain ⟨_, _, h⟩ := Res.bind_eq_ok.1 h
  obtain ⟨cert', _, h⟩ := Res.bind_eq_ok.1 h
  obtain ⟨_, _, h⟩ := Res.bind_eq_ok.1 h
  obtain ⟨_, _, h⟩ := Res.bind_eq_ok.1 h
  obtain ⟨_, _, h⟩ := Res.bind_eq_ok.1 h
  split_ifs at h
  cases h
  exact ⟨_, rfl⟩

theorem certificate_ok {env : ClientEnv} {h h' : ClientHandshake} {t : HashType} {m : Bytes} {hs : Handshake}
    (hw : handleServerCertificate env hs h = (.ok (), h')) (ht : h.tshash = some (ts t m))
    (hraw : hs.raw = Tls13.handshakeMessage hs.handshakeType.code hs.fraqment) :
    (∃ e, h'.state = .finishWithError e ∧ h'.stream = h.stream) ∨
    ∃ cert, ServerPresented env hs.raw cert ∧ h' = { h with
      tshash := some (ts t (m ++ hs.raw)), serverCert := some cert, state := .serverCertificateVerify } := by
  unfold handleServerCertificate at hw
  split_ifs at hw with hty
  · exact absurd hw Step.throw_ok
  have hty : hs.handshakeType = .certificate := by simpa using hty
  sbind hw with ⟨u, h2, e3, hw⟩
  have e3 := update_ok (t := ts t m) e3 ht
  subst e3
  cases hfh : Certificate.fromHello env.now hs.fraqment with
  | panic => rw [hfh] at hw; exact absurd hw Step.crash_ok
  | err e =>
    rw [hfh] at hw
    have hw := Step.modify_ok.1 hw
    subst hw
    exact .inl ⟨e, rfl, rfl⟩
  | ok certs =>
    obtain ⟨cert, rfl⟩ := fromHello_single hfh
    rw [hfh] at hw
    simp only [] at hw
    slift hw with ⟨cert', e7, hw⟩
    cases e7
    rw [Step.bind_modify] at hw
    have hw := Step.modify_ok.1 hw
    refine .inr ⟨cert, ⟨hs.fraqment, by rw [hraw, hty]; rfl, hfh⟩, ?_⟩
    rw [hw, ts_update]

theorem certificateVerify_ok {x : Params} {h h' : ClientHandshake} {m : Bytes} {hs : Handshake} {cert : Certificate}
    (hw : handleServerCertificateVerify hs h = (.ok (), h')) (ht : h.tshash = some (ts x.t m)) (hc : h.serverCert = some cert)
    (hraw : hs.raw = Tls13.handshakeMessage hs.handshakeType.code hs.fraqment) :
    (∃ e, h'.state = .finishWithError e ∧ h'.stream = h.stream) ∨
    ServerPossessed x m hs.raw cert ∧ h' = { h with tshash := some (ts x.t (m ++ hs.raw)), state := .finished } := by
  unfold handleServerCertificateVerify at hw
  rw [Step.bind_get, hc] at hw
  simp only [] at hw
  split_ifs at hw with hty
  · exact absurd hw Step.throw_ok
  have hty : hs.handshakeType = .certificateVerify := by simpa using hty
  slift hw with ⟨a, e2, hw⟩
  slift hw with ⟨algo, e3, hw⟩
  split_ifs at hw with halg
  · exact absurd hw Step.crash_ok
  have halg : algo = .ecdsaSecp256r1Sha256 := by simpa using halg
  subst halg
  slift hw with ⟨der, e4, hw⟩
  cases hd : Signature.fromDer der with
  | panic => rw [hd] at hw; exact absurd hw Step.crash_ok
  | err e =>
    rw [hd] at hw
    have hw := Step.modify_ok.1 hw
    subst hw
    exact .inl ⟨_, rfl, rfl⟩
  | ok v =>
    obtain ⟨sig, size⟩ := v
    rw [hd] at hw
    simp only [] at hw
    sbind hw with ⟨y, h1, e5, hw⟩
    obtain ⟨rfl, rfl⟩ := tshash_ok e5 ht
    slift hw with ⟨valid, e6, hw⟩
    cases valid with
    | false =>
      rw [if_pos (by rfl)] at hw
      have hw := Step.modify_ok.1 hw
      subst hw
      exact .inl ⟨_, rfl, rfl⟩
    | true =>
      simp only [Bool.not_true, Bool.false_eq_true, if_false] at hw
      sbind hw with ⟨u, h2, e8, hw⟩
      have e8 := update_ok (t := ts x.t m) e8 ht
      subst e8
      slift hw with ⟨l, e7, hw⟩
      split_ifs at hw with hl
      · have hw := Step.modify_ok.1 hw
        subst hw
        exact .inl ⟨_, rfl, rfl⟩
      have hl : toU16 l = size := by simpa using hl
      have hw := Step.modify_ok.1 hw
      refine .inr ⟨⟨hs.fraqment, by rw [hraw, hty]; rfl, sig, size, ?_, ?_, ?_, e6⟩, ?_⟩
      · rw [e2]
        have := ServerProof.toU16_two (i := 0) e2
        have h403 : toU16 a = 0x0403 := by
          unfold SignatureScheme.new at e3
          by_cases h1 : toU16 a = 0x0403
          · exact h1
          · rw [if_neg h1] at e3
            split_ifs at e3 <;> cases e3
        rw [this, h403]
        rfl
      · have : der = hs.fraqment.drop 4 := by
          unfold sliceFrom at e4
          split_ifs at e4
          exact (Res.ok.inj e4).symm
        rw [← this]; exact hd
      · rw [e7, ← hl, ← ServerProof.toU16_two (i := 2) e7]
      · rw [hw, ts_update]

/-! ### The client's flight -/

theorem sendVerify_ok {env : ClientEnv} {x : Params} {h h' : ClientHandshake} {p : RecordPayloadProtection} {nw nr : Nat} {m : Bytes}
    (hw : sendCertificateVerify env h = (.ok (), h')) (ht : h.tshash = some (ts x.t m)) (hm : m.length < 2 ^ 53)
    (hp : h.stream.protection = some p) (hk : HsProt x true p nw nr) (hn : nw < 2 ^ 62) :
    ∃ cvs wire p' s, (match env.config.clientCert with
      | none => cvs = []
      | some _ => ∃ key sig der, env.config.clientKey = some key ∧
          Ecdsa.sign env.nonces key (Sha2.sha256 (Tls13.verifyContent .client (x.sess.hash.H m))) = .ok (some sig) ∧
          sig.toDer = .ok der ∧ cvs = [Tls13.handshakeMessage 15#8 (Tls13.certificateVerifyMessage 0x0403 der)]) ∧
      cvs.length ≤ 1 ∧ cvs.flatten.length ≤ 200 ∧ h' = { h with stream := s, tshash := some (ts x.t (m ++ cvs.flatten)) } ∧
      Tls13.Sent (aead x.c) (x.sess.key .client) (x.sess.iv .client) nw cvs wire ∧ out s = out h.stream ++ wire ∧ s.protection = some p' ∧
      HsProt x true p' (nw + cvs.length) nr ∧ s.stream.incoming = h.stream.stream.incoming := by
  unfold sendCertificateVerify at hw
  cases hc : env.config.clientCert with
  | none =>
    rw [hc] at hw
    obtain ⟨_, rfl⟩ := Step.pure_ok.1 hw
    refine ⟨[], [], p, h'.stream, rfl, by simp, by simp, ?_, rfl, by simp, hp, hk, rfl⟩
    rw [List.flatten_nil, List.append_nil, ← ht]
  | some cert =>
    cases hkey : env.config.clientKey with
    | none => rw [hc, hkey] at hw; exact absurd hw Step.throw_ok
    | some key =>
      rw [hc, hkey] at hw
      simp only [] at hw
      sbind hw with ⟨y, h1, e1, hw⟩
      obtain ⟨rfl, rfl⟩ := tshash_ok e1 ht
      slift hw with ⟨body, e2, hw⟩
      obtain ⟨sig, der, d1, d2, rfl, d4⟩ := ServerProof.cvBody_inv .client hm e2
      rw [toBytes_eq] at hw
      obtain ⟨cv, hcv⟩ : ∃ cv, cv = Tls13.handshakeMessage HandshakeType.certificateVerify.code (Tls13.certificateVerifyMessage 1027 der) := ⟨_, rfl⟩
      have hcvl : cv.length ≤ 200 := by
        rw [hcv]
        simp only [Tls13.handshakeMessage, Tls13.certificateVerifyMessage, List.length_append, beBytes_length, List.length_cons, List.length_nil]
        omega
      rw [← hcv] at hw
      sbind hw with ⟨u, h2, e3, hw⟩
      have e3 := update_ok (t := ts x.t m) e3 ht
      subst e3
      obtain ⟨w, p', s, rfl, f2, f3, f4, f5, f6⟩ := write_hs hw hp hk (by omega)
      refine ⟨[cv], w, p', s, ⟨key, sig, der, rfl, d1, d2, by rw [hcv]; rfl⟩, by simp, by simpa using hcvl, ?_, f2, f3, f4, f5, f6⟩
      rw [ts_update, List.flatten_cons, List.flatten_nil, List.append_nil]

theorem request_split {request : Bytes} {n : Byte} {context l exts : Bytes} (h1 : (idx request 0 : Res TlsError Byte) = .ok n)
    (h2 : (if n.toNat > 0 then slice request 1 (n.toNat + 1) else .ok [] : Res TlsError Bytes) = .ok context)
    (h3 : (sliceFrom request (1 + n.toNat) : Res TlsError Bytes) = .ok l)
    (h4 : (slice request (1 + n.toNat + 2) (1 + n.toNat + 2 + toU16 l) : Res TlsError Bytes) = .ok exts) :
    [n] = beBytes 1 context.length ∧ ∃ rest, request = beBytes 1 context.length ++ context ++ beBytes 2 exts.length ++ exts ++ rest := by
  cases request with
  | nil => simp [idx] at h1
  | cons b tl =>
    simp only [idx, List.getElem?_cons_zero] at h1
    have h1 : b = n := by simpa using h1
    subst h1
    unfold sliceFrom at h3
    split_ifs at h3 with hc3
    have h3 := (Res.ok.inj h3).symm
    rw [Nat.add_comm 1, List.drop_succ_cons] at h3
    unfold slice at h4
    split_ifs at h4 with hc4
    have h4 := (Res.ok.inj h4).symm
    simp only [List.length_cons] at hc3 hc4
    have hctx : context = tl.take b.toNat := by
      split_ifs at h2 with hb
      · unfold slice at h2
        split_ifs at h2 with hc2
        rw [← Res.ok.inj h2]
        simp
      · have : b.toNat = 0 := by omega
        rw [this, ← Res.ok.inj h2]; rfl
    have hcl : context.length = b.toNat := by rw [hctx, List.length_take]; omega
    have hn : [b] = beBytes 1 context.length := by rw [hcl]; simp [beBytes]
    have hll : 2 ≤ l.length := by rw [h3, List.length_drop]; omega
    have hl2 : l.take 2 = beBytes 2 (toU16 l) := by
      have hs : (slice l 0 (0 + 2) : Res TlsError Bytes) = .ok (l.take 2) := by
        unfold slice
        rw [if_pos ⟨by omega, by omega⟩]
        simp
      have := ServerProof.toU16_two hs
      rw [this]
      rcases l with _ | ⟨a, _ | ⟨c, r⟩⟩
      · simp at hll
      · simp at hll
      · rfl
    have hel : exts.length = toU16 l := by
      rw [h4]
      simp only [List.length_take, List.length_drop, List.length_cons]
      omega
    have hex : exts = (l.drop 2).take (toU16 l) := by
      rw [h4, h3, List.drop_drop]
      have : 1 + b.toNat + 2 = (b.toNat + 2) + 1 := by omega
      rw [this, List.drop_succ_cons]
      congr 1
      omega
    refine ⟨hn, (l.drop 2).drop (toU16 l), ?_⟩
    rw [← hn, hel, ← hl2, hex]
    have e : b :: tl = [b] ++ (tl.take b.toNat ++ tl.drop b.toNat) := by rw [List.take_append_drop]; rfl
    rw [e, ← hctx, ← h3]
    simp only [List.append_assoc, List.take_append_drop]

theorem answer_ok {env : ClientEnv} {x : Params} {h h' : ClientHandshake} {p : RecordPayloadProtection} {nr : Nat} {m : Bytes}
    (hw : answerRequest env h = (.ok (), h')) (ht : h.tshash = some (ts x.t m)) (hm : m.length < 2 ^ 52)
    (hcl : ∀ c, env.config.clientCert = some c → c.raw.length < 2 ^ 24)
    (hp : h.stream.protection = some p) (hk : HsProt x true p 0 nr) :
    ∃ auth wire p' s st, ClientAnswer env x m h.certificateRequest auth ∧ auth.length ≤ 2 ∧ auth.flatten.length < 2 ^ 26 ∧
      h' = { h with stream := s, tshash := some (ts x.t (m ++ auth.flatten)), state := st } ∧
      Tls13.Sent (aead x.c) (x.sess.key .client) (x.sess.iv .client) 0 auth wire ∧ out s = out h.stream ++ wire ∧ s.protection = some p' ∧
      HsProt x true p' auth.length nr ∧ s.stream.incoming = h.stream.stream.incoming := by
  unfold answerRequest at hw
  rw [Step.bind_get] at hw
  cases hreq : h.certificateRequest with
  | none =>
    rw [hreq] at hw
    obtain ⟨_, rfl⟩ := Step.pure_ok.1 hw
    refine ⟨[], [], p, h'.stream, h'.state, rfl, by simp, by simp, ?_, rfl, by simp, hp, hk, rfl⟩
    rw [List.flatten_nil, List.append_nil, ← ht, ← hreq]
  | some request =>
    rw [hreq, if_pos (by rfl)] at hw
    unfold handleCertificateRequest at hw
    rw [Step.bind_get] at hw
    slift hw with ⟨r, e1, hw⟩
    rw [hreq] at e1
    cases e1
    slift hw with ⟨n, e2, hw⟩
    slift hw with ⟨context, e3, hw⟩
    simp only [] at hw
    slift hw with ⟨l, e4, hw⟩
    slift hw with ⟨exts, e5, hw⟩
    obtain ⟨hn, rest, hsplit⟩ := request_split e2 e3 e4 e5
    have hctxl : context.length < 2 ^ 8 := by
      have hb := n.isLt
      split_ifs at e3 with hz
      · unfold slice at e3
        split_ifs at e3
        rw [← Res.ok.inj e3, List.length_take]
        omega
      · rw [← Res.ok.inj e3]; simp
    have hw : ((do
        writeRecord .handshake (Handshake.toBytes .certificate ([n] ++ context ++ (match env.config.clientCert with
          | some c => c.getCertificateForHandshake []
          | none => [0x00#8, 0x00#8, 0x00#8, 0x02#8, 0x00#8, 0x00#8])))
        updateTshash (Handshake.toBytes .certificate ([n] ++ context ++ (match env.config.clientCert with
          | some c => c.getCertificateForHandshake []
          | none => [0x00#8, 0x00#8, 0x00#8, 0x02#8, 0x00#8, 0x00#8])))
        sendCertificateVerify env
        setState .serverCertificate) : M Unit) h = (.ok (), h') := by
      revert hw
      cases CertificateRequestExtensions.fromRequest exts with
      | panic => intro hw; exact absurd hw Step.crash_ok
      | ok _ => exact id
      | err _ => exact id
    obtain ⟨cm, hcm⟩ : ∃ cm, cm = Handshake.toBytes .certificate ([n] ++ context ++ (match env.config.clientCert with
          | some c => c.getCertificateForHandshake []
          | none => [0x00#8, 0x00#8, 0x00#8, 0x02#8, 0x00#8, 0x00#8])) := ⟨_, rfl⟩
    rw [← hcm] at hw
    sbind hw with ⟨u, h1, e6, hw⟩
    obtain ⟨w1, p1, s1, rfl, a2, a3, a4, a5, a6⟩ := write_hs e6 hp hk (by omega)
    sbind hw with ⟨u, h2, e7, hw⟩
    have e7 := update_ok (t := ts x.t m) e7 ht
    subst e7
    rw [ts_update] at hw
    sbind hw with ⟨u, h3, e8, hw⟩
    have hcml : cm.length ≤ 2 ^ 24 + 1000 := by
      rw [hcm, toBytes_eq]
      have hlr : (match env.config.clientCert with
          | some c => c.getCertificateForHandshake []
          | none => [0x00#8, 0x00#8, 0x00#8, 0x02#8, 0x00#8, 0x00#8]).length ≤ 2 ^ 24 + 20 := by
        cases hc : env.config.clientCert with
        | none => simp
        | some c =>
          have := hcl c hc
          simp only [Certificate.getCertificateForHandshake, List.length_append, List.length_cons, List.length_nil]
          omega
      simp only [Tls13.handshakeMessage, List.length_append, beBytes_length, List.length_cons, List.length_nil]
      omega
    obtain ⟨cvs, w2, p2, s2, b1, b2, b3, rfl, b4, b5, b6, b7, b8⟩ := sendVerify_ok (x := x) (m := m ++ cm) e8 rfl
      (by rw [List.length_append]; omega) a4 a5 (by omega)
    have hw := Step.modify_ok.1 hw
    refine ⟨cm :: cvs, w1 ++ w2, p2, s2, .serverCertificate, ?_, by rw [List.length_cons]; omega, ?_, ?_, ?_, ?_, b6, ?_, ?_⟩
    · refine ⟨context, exts, rest, hctxl, hsplit, ?_⟩
      cases hc : env.config.clientCert with
      | none =>
        rw [hc] at b1 hcm
        simp only [] at b1 hcm ⊢
        rw [b1, hcm, toBytes_eq, hn]
        rfl
      | some c =>
        rw [hc] at b1 hcm
        simp only [] at b1 hcm ⊢
        obtain ⟨key, sig, der, c1, c2, c3, c4⟩ := b1
        refine ⟨key, sig, cm, der, c1, ?_, c2, c3, by rw [c4]⟩
        rw [hcm, toBytes_eq, hn, ← C70_built]
        simp only [Certificate.getCertificateForHandshake, List.append_assoc, List.nil_append]
        rfl
    · rw [List.flatten_cons, List.length_append]; omega
    · rw [hw, List.flatten_cons]
      simp only [List.append_assoc, hreq]
    · have := sent_append _ _ _ _ _ 0 _ _ a2 b4
      simpa using this
    · rw [b5]
      change out s1 ++ w2 = _
      rw [a3, List.append_assoc]
    · rw [show (cm :: cvs).length = 0 + 1 + cvs.length by simp; omega]; exact b7
    · rw [b8]; exact a6

/-! ### The invariant, between two messages -/

/-- What has been received and is stored, by state, before the handshake is complete. `seen`: the messages after ServerHello. -/
def Got (env : ClientEnv) (x : Params) (seen : Bytes) (h : ClientHandshake) : Prop :=
  match h.state with
  | .encryptedExtensions => seen = [] ∧ h.certificateRequest = none
  | .clientCertificateRequest | .serverCertificate => ∃ ee requests, seen = opening ee requests ∧ h.certificateRequest = requests.getLast?
  | .serverCertificateVerify => ∃ ee requests cm cert, seen = opening ee requests ++ cm ∧ ServerPresented env cm cert ∧ h.serverCert = some cert ∧
      h.certificateRequest = requests.getLast?
  | .finished => ∃ requests cert, ServerShown env x requests cert seen ∧ h.certificateRequest = requests.getLast?
  | _ => False

/-- The completed handshake. `seen`: the messages after ServerHello, `w`: what had been written before the client's flight. -/
def Done (env : ClientEnv) (x : Params) (w seen : Bytes) (s : TlsStream) (logged : List Bytes) : Prop :=
  ∃ requests cert shown auth cwire ignored p, ServerShown env x requests cert shown ∧
    seen = shown ++ x.sess.finished .server (x.hellos ++ shown) ++ ignored ∧
    ClientAnswer env x (x.hellos ++ shown ++ x.sess.finished .server (x.hellos ++ shown)) requests.getLast? auth ∧
    Tls13.Sent (aead x.c) (x.sess.key .client) (x.sess.iv .client) 0
      (auth ++ [x.sess.finished .client (x.hellos ++ shown ++ x.sess.finished .server (x.hellos ++ shown) ++ auth.flatten)]) cwire ∧
    out s = w ++ cwire ∧ s.protection = some p ∧ p.cipher = x.c ∧
    wKey p = x.appKey (x.hellos ++ shown ++ x.sess.finished .server (x.hellos ++ shown)) .client ∧
    rKey p = x.appKey (x.hellos ++ shown ++ x.sess.finished .server (x.hellos ++ shown)) .server ∧ auth.flatten.length < 2 ^ 26 ∧
    logged = hsLog env.config.keylog x ++ appLog env.config.keylog x (x.hellos ++ shown ++ x.sess.finished .server (x.hellos ++ shown))

def Inv (env : ClientEnv) (x : Params) (w seen : Bytes) (nr : Nat) (h : ClientHandshake) : Prop :=
  match h.state with
  | .finishWithError _ => True
  | .ready => Done env x w seen h.stream h.logged
  | _ => ∃ p, h.stream.protection = some p ∧ HsProt x true p 0 nr ∧ h.tshash = some (ts x.t (x.hellos ++ seen)) ∧ (out h.stream = w ∧ Logs env.config.keylog x h.keylog h.logged) ∧ Got env x seen h

theorem finish_ok {env : ClientEnv} {x : Params} (hx : x.Ok) {w seen : Bytes} {h h' : ClientHandshake} {p : RecordPayloadProtection} {nr : Nat} {hs : Handshake}
    (hw : handleServerFinish env hs h = (.ok (), h')) (hst : h.state = .finished) (hp : h.stream.protection = some p) (hk : HsProt x true p 0 nr)
    (ht : h.tshash = some (ts x.t (x.hellos ++ seen))) (ho : out h.stream = w ∧ Logs env.config.keylog x h.keylog h.logged) (hgot : Got env x seen h) (hm : (x.hellos ++ seen).length < 2 ^ 51)
    (hcl : ∀ c, env.config.clientCert = some c → c.raw.length < 2 ^ 24)
    (hraw : hs.raw = Tls13.handshakeMessage hs.handshakeType.code hs.fraqment) :
    Done env x w (seen ++ hs.raw) h'.stream h'.logged ∧ h'.state = .ready ∧ h'.stream.stream.incoming = h.stream.stream.incoming := by
  unfold Got at hgot
  simp only [hst] at hgot
  obtain ⟨requests, cert, g1, g2⟩ := hgot
  unfold handleServerFinish at hw
  rw [Step.bind_get] at hw
  split_ifs at hw with hty
  · rw [hst] at hw; exact absurd hw Step.throw_ok
  have hty : hs.handshakeType = .finished := by simpa using hty
  sbind hw with ⟨pp, h1, e2, hw⟩
  obtain ⟨rfl, rfl⟩ := protection_ok e2 hp
  sbind hw with ⟨y, h2, e5, hw⟩
  obtain ⟨rfl, rfl⟩ := tshash_ok e5 ht
  slift hw with ⟨vd, e6, hw⟩
  have hks : pp.keySchedule.serverHandshakeTrafficSecret = ⟨x.t, x.sess.secret .server⟩ := by rw [hk.ks]; rfl
  rw [hks, verify_data x .server _ (by omega)] at e6
  have e6 := Res.ok.inj e6
  subst e6
  rw [hst] at hw
  simp only [] at hw
  split_ifs at hw with hvd
  · exact absurd hw Step.throw_ok
  have hvd : hs.fraqment = Tls13.verifyData (rfcHash x.t) (x.sess.secret .server) ((rfcHash x.t).H (x.hellos ++ seen)) := by simpa using hvd
  have hfin : hs.raw = x.sess.finished .server (x.hellos ++ seen) := by rw [hraw, hty, hvd]; rfl
  have hfl := finished_le x .server (x.hellos ++ seen) (by omega)
  obtain ⟨T, hT⟩ : ∃ T, T = x.hellos ++ seen ++ x.sess.finished .server (x.hellos ++ seen) := ⟨_, rfl⟩
  have hTl : T.length < 2 ^ 52 := by rw [hT, List.length_append]; omega
  sbind hw with ⟨u, h3, e7, hw⟩
  have e7 := update_ok (t := ts x.t (x.hellos ++ seen)) e7 ht
  subst e7
  rw [ts_update, hfin, ← hT] at hw
  sbind hw with ⟨y, h4, e8, hw⟩
  obtain ⟨rfl, rfl⟩ := tshash_ok (t := ts x.t T) e8 rfl
  sbind hw with ⟨u, h5, e9, hw⟩
  obtain ⟨auth, w1, p1, s1, st, a1, a2, a3, rfl, a4, a5, a6, a7, a8⟩ := answer_ok (x := x) (m := T) e9 rfl hTl hcl hp hk
  sbind hw with ⟨pp2, h6, e10, hw⟩
  obtain ⟨rfl, rfl⟩ := protection_ok (p := p1) e10 a6
  sbind hw with ⟨y, h7, e11, hw⟩
  obtain ⟨rfl, rfl⟩ := tshash_ok (t := ts x.t (T ++ auth.flatten)) e11 rfl
  slift hw with ⟨fin, e12, hw⟩
  have hks : pp2.keySchedule.clientHandshakeTrafficSecret = ⟨x.t, x.sess.secret .client⟩ := by rw [a7.ks]; rfl
  rw [hks, finished_message x .client _ (by rw [List.length_append]; omega)] at e12
  have e12 := Res.ok.inj e12
  subst e12
  sbind hw with ⟨u, h8, e13, hw⟩
  obtain ⟨w2, p2, s2, rfl, b2, b3, b4, b5, b6⟩ := write_hs e13 a6 a7 (by omega)
  sbind hw with ⟨u, h9, e14, hw⟩
  obtain ⟨s3, e15, rfl⟩ := onStream_ok e14
  obtain ⟨c1, c2, c3, c4⟩ := flush_ok e15
  sbind hw with ⟨pp3, h10, e16, hw⟩
  obtain ⟨rfl, rfl⟩ := protection_ok (p := p2) e16 (by rw [← b4]; exact c3)
  slift hw with ⟨p', e17, hw⟩
  obtain ⟨d1, d2, d3, d4, d5⟩ := generate_app hx b5 (by omega) e17
  unfold setProtection at hw
  rw [Step.bind_modify] at hw
  sbind hw with ⟨u, h11, e18, hw⟩
  obtain ⟨l, rfl, hl⟩ := logApp_ok e18
  have hlf := hl.trans (app_logged ho.2 fun k => app_chunk (x := x) (b := true) (m := T) k e17 d1 d2 d4)
  clear hl
  rw [hT] at hlf
  have hw := Step.modify_ok.1 hw
  subst hw
  refine ⟨⟨requests, cert, seen, auth, w1 ++ w2, [], p', g1, by rw [hfin, List.append_nil], ?_, ?_, ?_, rfl, d3, ?_, ?_, a3, ?_⟩, rfl, ?_⟩
  · rw [← hT, ← g2]; exact a1
  · rw [← hT]
    exact sent_append _ _ _ _ _ 0 _ _ a4 (by rw [Nat.zero_add]; exact b2)
  · change out s3 = _
    rw [c1]
    change out s2 = _
    rw [b3]
    change out s1 ++ w2 = _
    rw [a5, List.append_assoc]
    exact congrArg (· ++ (w1 ++ w2)) ho.1
  · rw [← hT]; exact d1
  · rw [← hT]; exact d2
  · exact hlf
  · change s3.stream.incoming = _
    rw [c4]
    change s2.stream.incoming = _
    rw [b6]
    exact a8

/-- After an error was recorded, messages other than Finished change nothing and Finished reports the error. -/
theorem finish_err {env : ClientEnv} {h h' : ClientHandshake} {hs : Handshake} {e : TlsError} (hst : h.state = .finishWithError e)
    (hw : handleServerFinish env hs h = (.ok (), h')) : h' = h := by
  unfold handleServerFinish at hw
  rw [Step.bind_get] at hw
  split_ifs at hw with hty
  · rw [hst] at hw
    exact (Step.pure_ok.1 hw).2
  · sbind hw with ⟨pp, h1, e2, hw⟩
    sbind hw with ⟨y, h2, e5, hw⟩
    slift hw with ⟨vd, e6, hw⟩
    rw [hst] at hw
    exact absurd hw Step.throw_ok

theorem opening_snoc (ee : Bytes) (requests : List Bytes) (b : Bytes) :
    opening ee requests ++ Tls13.handshakeMessage 13#8 b = opening ee (requests ++ [b]) := by
  unfold opening
  simp [List.append_assoc]

/-- Every message the client takes without an error keeps the invariant. -/
theorem message_inv {env : ClientEnv} {x : Params} (hx : x.Ok) {w seen : Bytes} {nr : Nat} {h h' : ClientHandshake} {hs : Handshake}
    (hw : handleMessage env hs h = (.ok (), h')) (hi : Inv env x w seen nr h) (hm : (x.hellos ++ seen).length < 2 ^ 51)
    (hcl : ∀ c, env.config.clientCert = some c → c.raw.length < 2 ^ 24)
    (hraw : hs.raw = Tls13.handshakeMessage hs.handshakeType.code hs.fraqment) :
    Inv env x w (seen ++ hs.raw) nr h' ∧ h'.stream.stream.incoming = h.stream.stream.incoming ∧ h'.state ≠ .serverHello := by
  unfold handleMessage at hw
  rw [Step.bind_get] at hw
  have common : ((if hs.handshakeType = .certificateRequest then do
      .modify fun h => { h with certificateRequest := some hs.fraqment }
      updateTshash hs.raw
      setState .serverCertificate
    else handleServerCertificate env hs) : M Unit) h = (.ok (), h') → (∃ p, h.stream.protection = some p ∧ HsProt x true p 0 nr ∧
      h.tshash = some (ts x.t (x.hellos ++ seen)) ∧ (out h.stream = w ∧ Logs env.config.keylog x h.keylog h.logged) ∧
      ∃ ee requests, seen = opening ee requests ∧ h.certificateRequest = requests.getLast?) →
      Inv env x w (seen ++ hs.raw) nr h' ∧ h'.stream.stream.incoming = h.stream.stream.incoming ∧ h'.state ≠ .serverHello := by
    rintro hw ⟨p, i1, i2, i3, i4, ee, requests, i5, i6⟩
    split_ifs at hw with hty
    · rw [Step.bind_modify] at hw
      sbind hw with ⟨u, h1, e1, hw⟩
      have e1 := update_ok (t := ts x.t (x.hellos ++ seen)) e1 i3
      subst e1
      have hw := Step.modify_ok.1 hw
      subst hw
      refine ⟨⟨p, i1, i2, ?_, i4, ⟨ee, requests ++ [hs.fraqment], ?_, ?_⟩⟩, rfl, by simp⟩
      · rw [ts_update, List.append_assoc]
      · rw [hraw, hty, i5, ← opening_snoc]; rfl
      · simp
    · rcases certificate_ok (t := x.t) (m := x.hellos ++ seen) hw i3 hraw with ⟨e, k1, k2⟩ | ⟨cert, k1, rfl⟩
      · refine ⟨?_, by rw [k2], by rw [k1]; simp⟩
        unfold Inv
        rw [k1]
        trivial
      · refine ⟨⟨p, i1, i2, ?_, i4, ⟨ee, requests, hs.raw, cert, by rw [i5], k1, rfl, i6⟩⟩, rfl, by simp⟩
        rw [List.append_assoc]
  unfold Inv at hi
  cases hst : h.state with
  | serverHello =>
    simp only [hst] at hi
    obtain ⟨p, _, _, _, _, hg⟩ := hi
    unfold Got at hg
    simp only [hst] at hg
  | encryptedExtensions =>
    simp only [hst] at hi hw
    obtain ⟨p, i1, i2, i3, i4, i5⟩ := hi
    unfold Got at i5
    simp only [hst] at i5
    obtain ⟨rfl, i5⟩ := i5
    unfold handleEncryptedExtension at hw
    split_ifs at hw with hty
    · exact absurd hw Step.throw_ok
    have hty : hs.handshakeType = .encryptedExtensions := by simpa using hty
    sbind hw with ⟨u, h1, e1, hw⟩
    have e1 := update_ok (t := ts x.t (x.hellos ++ [])) e1 i3
    subst e1
    have hw := Step.modify_ok.1 hw
    subst hw
    refine ⟨⟨p, i1, i2, ?_, i4, ⟨hs.fraqment, [], ?_, i5⟩⟩, rfl, by simp⟩
    · rw [ts_update, List.append_assoc]
    · rw [hraw, hty]
      simp [opening]
      rfl
  | clientCertificateRequest =>
    simp only [hst] at hi hw
    obtain ⟨p, i1, i2, i3, i4, i5⟩ := hi
    unfold Got at i5
    simp only [hst] at i5
    exact common hw ⟨p, i1, i2, i3, i4, i5⟩
  | serverCertificate =>
    simp only [hst] at hi hw
    obtain ⟨p, i1, i2, i3, i4, i5⟩ := hi
    unfold Got at i5
    simp only [hst] at i5
    exact common hw ⟨p, i1, i2, i3, i4, i5⟩
  | serverCertificateVerify =>
    simp only [hst] at hi hw
    obtain ⟨p, i1, i2, i3, i4, i5⟩ := hi
    unfold Got at i5
    simp only [hst] at i5
    obtain ⟨ee, requests, cm, cert, j1, j2, j3, j4⟩ := i5
    rcases certificateVerify_ok (x := x) (m := x.hellos ++ seen) (cert := cert) hw i3 j3 hraw with ⟨e, k1, k2⟩ | ⟨k1, rfl⟩
    · refine ⟨?_, by rw [k2], by rw [k1]; simp⟩
      unfold Inv
      rw [k1]
      trivial
    · refine ⟨⟨p, i1, i2, ?_, i4, ⟨requests, cert, ⟨ee, cm, hs.raw, by rw [j1], j2, ?_⟩, j4⟩⟩, rfl, by simp⟩
      · rw [List.append_assoc]
      · rw [List.append_assoc, ← j1]; exact k1
  | finished =>
    simp only [hst] at hi hw
    obtain ⟨p, i1, i2, i3, i4, i5⟩ := hi
    obtain ⟨k1, k2, k3⟩ := finish_ok hx hw hst i1 i2 i3 i4 i5 hm hcl hraw
    refine ⟨?_, k3, by rw [k2]; simp⟩
    unfold Inv
    rw [k2]
    exact k1
  | finishWithError e =>
    simp only [hst] at hw
    have := finish_err hst hw
    subst this
    refine ⟨?_, rfl, by rw [hst]; simp⟩
    unfold Inv
    rw [hst]
    trivial
  | ready =>
    simp only [hst] at hi hw
    obtain ⟨_, rfl⟩ := Step.pure_ok.1 hw
    refine ⟨?_, rfl, by rw [hst]; simp⟩
    unfold Inv
    rw [hst]
    obtain ⟨requests, cert, shown, auth, cwire, ignored, p, j1, j2, j3⟩ := hi
    exact ⟨requests, cert, shown, auth, cwire, ignored ++ hs.raw, p, j1, by rw [j2, List.append_assoc], j3⟩

theorem messages_inv {env : ClientEnv} {x : Params} (hx : x.Ok) {w : Bytes} {nr : Nat} (hcl : ∀ c, env.config.clientCert = some c → c.raw.length < 2 ^ 24) :
    ∀ (fuel : Nat) (rest seen : Bytes) (h h' : ClientHandshake), (x.hellos ++ seen ++ rest).length < 2 ^ 51 → Inv env x w seen nr h → h.state ≠ .serverHello →
      messagesLoop env fuel rest h = (.ok (), h') →
      Inv env x w (seen ++ rest) nr h' ∧ h'.stream.stream.incoming = h.stream.stream.incoming ∧ h'.state ≠ .serverHello
  | 0, rest, seen, h, h', _, hi, hne, hw => by
    unfold messagesLoop at hw
    split_ifs at hw with hr
    · obtain ⟨_, rfl⟩ := Step.pure_ok.1 hw
      rw [hr, List.append_nil]
      exact ⟨hi, rfl, hne⟩
    · exact absurd hw Step.crash_ok
  | fuel + 1, rest, seen, h, h', hl, hi, hne, hw => by
    unfold messagesLoop at hw
    split_ifs at hw with hr
    · obtain ⟨_, rfl⟩ := Step.pure_ok.1 hw
      rw [hr, List.append_nil]
      exact ⟨hi, rfl, hne⟩
    slift hw with ⟨hs, e1, hw⟩
    sbind hw with ⟨u, h1, e2, hw⟩
    obtain ⟨g1, g2, _, _⟩ := handshake_inv e1
    have hlen := congrArg List.length g2
    rw [List.length_append] at hlen
    simp only [List.length_append] at hl
    obtain ⟨i1, i2, i3⟩ := message_inv hx e2 hi (by rw [List.length_append]; omega) hcl g1
    obtain ⟨j1, j2, j3⟩ := messages_inv hx hcl fuel (rest.drop hs.raw.length) (seen ++ hs.raw) h1 h' (by
      simp only [List.length_append]; omega) i1 i3 hw
    rw [List.append_assoc, ← g2] at j1
    exact ⟨j1, by rw [j2, i2], j3⟩

/-! ### Records and reads -/

theorem decryptRecord_ok {x : Params} (hx : x.Ok) {h h' : ClientHandshake} {p : RecordPayloadProtection} {nw nr : Nat} {record : Record} {t : RecordType}
    {content buf : Bytes} {n : Nat} (hw : decryptRecord record h = (.ok (t, content), h')) (hp : h.stream.protection = some p)
    (hk : HsProt x true p nw nr) (hn : nr < 2 ^ 63) (hr : Record.fromRaw buf = .ok (n, record)) (ht : t ≠ .invalid) :
    ∃ p', h' = { h with stream := h.stream.setProtection (some p') } ∧ HsProt x true p' nw (nr + 1) ∧ content.length ≤ n ∧
      Tls13.Carries (aead x.c) (x.sess.key .server) (x.sess.iv .server) nr t.code content (buf.take n) := by
  unfold decryptRecord at hw
  sbind hw with ⟨pp, h1, e1, hw⟩
  obtain ⟨rfl, rfl⟩ := protection_ok e1 hp
  rcases hd : pp.decrypt record with ⟨r, p'⟩
  simp only [hd] at hw
  have h1 := (Prod.mk.inj hw).1
  have h2 := (Prod.mk.inj hw).2
  subst h1
  obtain ⟨g1, g2, _, g3⟩ := decrypt_carries hx hk hn hr ht hd
  exact ⟨p', h2.symm, g2, g3, g1⟩

theorem decrypt_frame {h h' : ClientHandshake} {record : Record} {r : RecordType × Bytes} (hw : decryptRecord record h = (.ok r, h')) :
    ∃ p', h' = { h with stream := h.stream.setProtection (some p') } := by
  unfold decryptRecord at hw
  sbind hw with ⟨pp, h1, e1, hw⟩
  have e3 : h = h1 := (Prod.mk.inj e1).2
  subst e3
  rcases hd : pp.decrypt record with ⟨r, p'⟩
  simp only [hd] at hw
  exact ⟨p', (Prod.mk.inj hw).2.symm⟩

theorem encrypted_step {env : ClientEnv} {h h' : ClientHandshake} {record : Record} (hw : handleEncryptedRecord env record h = (.ok (), h')) :
    ∃ content h1, decryptRecord record h = (.ok (.handshake, content), h1) ∧ messagesLoop env content.length content h1 = (.ok (), h') := by
  unfold handleEncryptedRecord at hw
  sbind hw with ⟨⟨t, content⟩, h1, e1, hw⟩
  simp only [] at hw
  by_cases hc : t = .handshake
  · subst hc
    exact ⟨content, h1, e1, hw⟩
  · rw [if_pos hc] at hw
    split_ifs at hw with ha
    · slift hw with ⟨c, e2, hw⟩
      exact absurd hw Step.throw_ok
    · exact absurd hw Step.throw_ok

/-- What holds between two records. `recv`: the records handled so far. -/
def RInv (env : ClientEnv) (n : Int) (ch w recv : Bytes) (h : ClientHandshake) : Prop :=
  match h.state with
  | .serverHello => recv = [] ∧ h.stream.protection = none ∧ h.clientHelloBytes = some ch ∧ h.certificateRequest = none ∧ out h.stream = w ∧
      h.privateKey = ⟨.curve25519, n⟩ ∧ h.keylog = none ∧ h.logged = [] ∧ ∀ sh, h.clientHelloRandom = some (((ch ++ sh).drop 6).take 32)
  | .finishWithError _ => True
  | st => ∃ x sh shRec contents wire tail, Tls13.IsRecord 22#8 sh shRec ∧ ServerAnswered x n ch sh ∧ x.Ok ∧ x.hellos.length < 2 ^ 27 ∧
      Tls13.Carried (aead x.c) (x.sess.key .server) (x.sess.iv .server) 0 contents wire ∧ recv = shRec ++ wire ++ tail ∧ Tls13.RecordsWithout 21#8 tail ∧
      (st = .ready ∨ tail = []) ∧ Inv env x w contents.flatten contents.length h ∧ contents.flatten.length ≤ recv.length ∧ contents.length ≤ recv.length

theorem messages_err {env : ClientEnv} :
    ∀ (fuel : Nat) (rest : Bytes) (h h' : ClientHandshake) (e : TlsError), h.state = .finishWithError e → messagesLoop env fuel rest h = (.ok (), h') → h' = h
  | 0, rest, h, h', e, hs, hw => by
    unfold messagesLoop at hw
    split_ifs at hw with hr
    · exact (Step.pure_ok.1 hw).2
    · exact absurd hw Step.crash_ok
  | fuel + 1, rest, h, h', e, hst, hw => by
    unfold messagesLoop at hw
    split_ifs at hw with hr
    · exact (Step.pure_ok.1 hw).2
    slift hw with ⟨hs, e1, hw⟩
    sbind hw with ⟨u, h1, e2, hw⟩
    unfold handleMessage at e2
    rw [Step.bind_get] at e2
    simp only [hst] at e2
    have := finish_err hst e2
    subst this
    exact messages_err fuel _ h1 h' e hst hw

/-- Every record the client takes without an error keeps the invariant. -/
theorem record_inv {env : ClientEnv} {n : Int} {ch w recv buf : Bytes} {k : Nat} {record : Record} {h h' : ClientHandshake}
    (hw : handleRecord env record h = (.ok (), h')) (hcl : ∀ c, env.config.clientCert = some c → c.raw.length < 2 ^ 24) (hch : ch.length < 2 ^ 26)
    (hr : Record.fromRaw buf = .ok (k, record)) (hsz : recv.length + k < 2 ^ 50) (hi : RInv env n ch w recv h) :
    RInv env n ch w (recv ++ buf.take k) h' ∧ h'.stream.stream.incoming = h.stream.stream.incoming := by
  obtain ⟨hrec, _, _, _, hfl, hn5, hnl⟩ := fromRaw_isRecord hr
  have hbl : (buf.take k).length = k := by rw [List.length_take]; omega
  have hrl : (recv ++ buf.take k).length = recv.length + k := by rw [List.length_append, hbl]
  unfold handleRecord at hw
  rw [Step.bind_get] at hw
  by_cases hccs : record.contentType = .changeCipherSpec
  · rw [hccs] at hw
    simp only [] at hw
    split_ifs at hw with hst
    · exact absurd hw Step.throw_ok
    obtain ⟨_, rfl⟩ := Step.pure_ok.1 hw
    rw [hccs] at hrec
    refine ⟨?_, rfl⟩
    have key : ∀ st, (∃ x sh shRec contents wire tail, Tls13.IsRecord 22#8 sh shRec ∧ ServerAnswered x n ch sh ∧ x.Ok ∧ x.hellos.length < 2 ^ 27 ∧
        Tls13.Carried (aead x.c) (x.sess.key .server) (x.sess.iv .server) 0 contents wire ∧ recv = shRec ++ wire ++ tail ∧ Tls13.RecordsWithout 21#8 tail ∧
        (st = .ready ∨ tail = []) ∧ Inv env x w contents.flatten contents.length h' ∧ contents.flatten.length ≤ recv.length ∧ contents.length ≤ recv.length) →
        (∃ x sh shRec contents wire tail, Tls13.IsRecord 22#8 sh shRec ∧ ServerAnswered x n ch sh ∧ x.Ok ∧ x.hellos.length < 2 ^ 27 ∧
        Tls13.Carried (aead x.c) (x.sess.key .server) (x.sess.iv .server) 0 contents wire ∧ recv ++ buf.take k = shRec ++ wire ++ tail ∧
        Tls13.RecordsWithout 21#8 tail ∧ (st = ClientHsState.ready ∨ tail = []) ∧ Inv env x w contents.flatten contents.length h' ∧
        contents.flatten.length ≤ (recv ++ buf.take k).length ∧ contents.length ≤ (recv ++ buf.take k).length) := by
      rintro st ⟨x, sh, shRec, contents, wire, tail, i1, i2, i3, i4, i5, i6, i7, i8, i9, i10, i11⟩
      rcases i8 with i8 | i8
      · exact ⟨x, sh, shRec, contents, wire, tail ++ buf.take k, i1, i2, i3, i4, i5, by rw [i6]; simp only [List.append_assoc],
          ServerProof.tail_record (t := .changeCipherSpec) i7 (by decide) hrec, .inl i8, i9, by rw [hrl]; omega, by rw [hrl]; omega⟩
      · refine ⟨x, sh, shRec, contents, wire ++ buf.take k, tail, i1, i2, i3, i4, ?_, ?_, i7, .inr i8, i9, by rw [hrl]; omega, by rw [hrl]; omega⟩
        · have := carried_append _ _ _ i5 (ms' := []) (w' := buf.take k ++ []) (.ccs _ _ _ _ _ hrec (.nil _))
          simpa using this
        · rw [i6, i8]; simp
    unfold RInv at hi ⊢
    cases hs : h'.state with
    | serverHello => exact absurd hs hst
    | finishWithError e => trivial
    | encryptedExtensions => simp only [hs] at hi ⊢; exact key _ hi
    | clientCertificateRequest => simp only [hs] at hi ⊢; exact key _ hi
    | serverCertificate => simp only [hs] at hi ⊢; exact key _ hi
    | serverCertificateVerify => simp only [hs] at hi ⊢; exact key _ hi
    | finished => simp only [hs] at hi ⊢; exact key _ hi
    | ready => rw [hs] at hi; exact key _ hi
  by_cases hal : record.contentType = .alert
  · rw [hal] at hw
    simp only [] at hw
    slift hw with ⟨c, e2, hw⟩
    exact absurd hw Step.throw_ok
  have hw' : ((match h.state with
    | .serverHello =>
      if record.contentType ≠ .handshake then .throw .unexpectedMessage else handleServerHello env record
    | .ready => pure ()
    | _ => handleEncryptedRecord env record) : M Unit) h = (.ok (), h') := by
    revert hw
    cases hct : record.contentType <;> first | exact absurd hct hccs | exact absurd hct hal | exact id
  clear hw
  have enc : ∀ st, st ≠ ClientHsState.ready → h.state ≠ .ready → h.state ≠ .serverHello → (∀ e, h.state ≠ .finishWithError e) →
      handleEncryptedRecord env record h = (.ok (), h') →
      (∃ x sh shRec contents wire tail, Tls13.IsRecord 22#8 sh shRec ∧ ServerAnswered x n ch sh ∧ x.Ok ∧ x.hellos.length < 2 ^ 27 ∧
        Tls13.Carried (aead x.c) (x.sess.key .server) (x.sess.iv .server) 0 contents wire ∧ recv = shRec ++ wire ++ tail ∧ Tls13.RecordsWithout 21#8 tail ∧
        (st = .ready ∨ tail = []) ∧ Inv env x w contents.flatten contents.length h ∧ contents.flatten.length ≤ recv.length ∧ contents.length ≤ recv.length) →
      RInv env n ch w (recv ++ buf.take k) h' ∧ h'.stream.stream.incoming = h.stream.stream.incoming := by
    rintro st hst hnr hns hne hw ⟨x, sh, shRec, contents, wire, tail, i1, i2, i3, i4, i5, i6, i7, i8, i9, i10, i11⟩
    have i8 : tail = [] := i8.resolve_left hst
    subst i8
    obtain ⟨content, h1, e1, hw⟩ := encrypted_step hw
    have hi : ∃ p, h.stream.protection = some p ∧ HsProt x true p 0 contents.length ∧ h.tshash = some (ts x.t (x.hellos ++ contents.flatten)) ∧
        (out h.stream = w ∧ Logs env.config.keylog x h.keylog h.logged) ∧ Got env x contents.flatten h := by
      unfold Inv at i9
      cases hs : h.state with
      | ready => exact absurd hs hnr
      | finishWithError e => exact absurd hs (hne e)
      | serverHello => exact absurd hs hns
      | encryptedExtensions => simp only [hs] at i9; exact i9
      | clientCertificateRequest => simp only [hs] at i9; exact i9
      | serverCertificate => simp only [hs] at i9; exact i9
      | serverCertificateVerify => simp only [hs] at i9; exact i9
      | finished => simp only [hs] at i9; exact i9
    obtain ⟨p, j1, j2, j3, j4, j5⟩ := hi
    obtain ⟨p', rfl, g1, g2, g3⟩ := decryptRecord_ok i3 e1 j1 j2 (by omega) hr (by decide)
    have hi' : Inv env x w contents.flatten (contents.length + 1) { h with stream := h.stream.setProtection (some p') } := by
      unfold Inv
      simp only []
      have big : ∃ q, (h.stream.setProtection (some p')).protection = some q ∧ HsProt x true q 0 (contents.length + 1) ∧
        h.tshash = some (ts x.t (x.hellos ++ contents.flatten)) ∧ (out (h.stream.setProtection (some p')) = w ∧ Logs env.config.keylog x h.keylog h.logged) ∧
        Got env x contents.flatten { h with stream := h.stream.setProtection (some p') } := ⟨p', rfl, g1, j3, j4, j5⟩
      cases hs : h.state with
      | ready => exact absurd hs hnr
      | finishWithError e => exact absurd hs (hne e)
      | serverHello => exact absurd hs hns
      | encryptedExtensions => rw [hs] at big; exact big
      | clientCertificateRequest => rw [hs] at big; exact big
      | serverCertificate => rw [hs] at big; exact big
      | serverCertificateVerify => rw [hs] at big; exact big
      | finished => rw [hs] at big; exact big
    obtain ⟨k1, k2, k3⟩ := messages_inv i3 hcl _ _ _ _ _ (by simp only [List.length_append]; omega) hi' hns hw
    refine ⟨?_, k2⟩
    have hcar := carried_append _ _ _ i5 (ms' := [content]) (w' := buf.take k ++ []) (.cons _ _ _ _ _ (by rw [Nat.zero_add]; exact g3) (otherRecord hccs hal hrec) (.nil _))
    have hflat : (contents ++ [content]).flatten = contents.flatten ++ content := by simp
    have hl : (contents ++ [content]).length = contents.length + 1 := by simp
    have fin : ∀ st : ClientHsState, ∃ x sh shRec contents wire tail, Tls13.IsRecord 22#8 sh shRec ∧ ServerAnswered x n ch sh ∧ x.Ok ∧ x.hellos.length < 2 ^ 27 ∧
        Tls13.Carried (aead x.c) (x.sess.key .server) (x.sess.iv .server) 0 contents wire ∧ recv ++ buf.take k = shRec ++ wire ++ tail ∧
        Tls13.RecordsWithout 21#8 tail ∧ (st = ClientHsState.ready ∨ tail = []) ∧ Inv env x w contents.flatten contents.length h' ∧
        contents.flatten.length ≤ (recv ++ buf.take k).length ∧ contents.length ≤ (recv ++ buf.take k).length := by
      intro st
      refine ⟨x, sh, shRec, contents ++ [content], wire ++ (buf.take k ++ []), [], i1, i2, i3, i4, hcar, ?_, .nil, .inr rfl, ?_, ?_, ?_⟩
      · rw [i6]; simp only [List.append_assoc, List.append_nil]
      · rw [hflat, hl]; exact k1
      · rw [hflat, hrl, List.length_append]; omega
      · rw [hl, hrl]; omega
    unfold RInv
    cases hs : h'.state with
    | serverHello => exact absurd hs k3
    | finishWithError e => trivial
    | encryptedExtensions => exact fin _
    | clientCertificateRequest => exact fin _
    | serverCertificate => exact fin _
    | serverCertificateVerify => exact fin _
    | finished => exact fin _
    | ready => exact fin _
  unfold RInv at hi
  cases hs : h.state with
  | serverHello =>
    simp only [hs] at hi hw'
    obtain ⟨rfl, i1, i2, i3, i4, i5, i6, i7, i8⟩ := hi
    split_ifs at hw' with hct
    · exact absurd hw' Step.throw_ok
    have hct : record.contentType = .handshake := by simpa using hct
    obtain ⟨x, p, j1, j2, j3, j4, j5, j6, j7, j8, j9⟩ := serverHello_ok hw' i2 hch i5 hfl
    rw [hct] at hrec
    refine ⟨?_, by rw [j5]; rfl⟩
    unfold RInv
    simp only [j7]
    refine ⟨x, record.fraqment, buf.take k, [], [], [], hrec, j1, j2, j3, .nil _, by simp, .nil, .inr rfl, ?_, by simp, by simp⟩
    unfold Inv
    simp only [j7]
    refine ⟨p, by rw [j5]; rfl, j4, by rw [j6]; simp, ⟨by rw [j5]; exact i4, j9 i8 i6 i7⟩, ?_⟩
    unfold Got
    simp only [j7]
    exact ⟨rfl, by rw [j8, i3]⟩
  | ready =>
    simp only [hs] at hi hw'
    obtain ⟨_, rfl⟩ := Step.pure_ok.1 hw'
    obtain ⟨x, sh, shRec, contents, wire, tail, i1, i2, i3, i4, i5, i6, i7, i8, i9, i10, i11⟩ := hi
    refine ⟨?_, rfl⟩
    unfold RInv
    simp only [hs]
    exact ⟨x, sh, shRec, contents, wire, tail ++ buf.take k, i1, i2, i3, i4, i5, by rw [i6]; simp only [List.append_assoc],
      ServerProof.tail_record i7 hal hrec, .inl trivial, i9, by rw [hrl]; omega, by rw [hrl]; omega⟩
  | finishWithError e =>
    simp only [hs] at hw'
    obtain ⟨content, h1, e1, hw⟩ := encrypted_step hw'
    obtain ⟨p', rfl⟩ := decrypt_frame e1
    have := messages_err _ _ _ _ e (by exact hs) hw
    subst this
    refine ⟨?_, rfl⟩
    unfold RInv
    simp only [hs]
  | encryptedExtensions => simp only [hs] at hi hw'; exact enc _ (by simp) (by simp [hs]) (by simp [hs]) (by simp [hs]) hw' hi
  | clientCertificateRequest => simp only [hs] at hi hw'; exact enc _ (by simp) (by simp [hs]) (by simp [hs]) (by simp [hs]) hw' hi
  | serverCertificate => simp only [hs] at hi hw'; exact enc _ (by simp) (by simp [hs]) (by simp [hs]) (by simp [hs]) hw' hi
  | serverCertificateVerify => simp only [hs] at hi hw'; exact enc _ (by simp) (by simp [hs]) (by simp [hs]) (by simp [hs]) hw' hi
  | finished => simp only [hs] at hi hw'; exact enc _ (by simp) (by simp [hs]) (by simp [hs]) (by simp [hs]) hw' hi

theorem taken_mono {a b recv : Bytes} (h : TakenFrom a recv) : TakenFrom (a ++ b) recv := by
  induction h with
  | nil => exact .nil
  | snoc t c wire recv _ h2 h3 ih => exact .snoc t c wire recv ih h2 (h3.trans (List.infix_append' [] a b))

theorem records_inv {env : ClientEnv} {n : Int} {ch w rx read B D : Bytes} (hcl : ∀ c, env.config.clientCert = some c → c.raw.length < 2 ^ 24)
    (hch : ch.length < 2 ^ 26) (hB : B = if D = [] then rx else D) (hBr : B <:+ read) :
    ∀ (fuel offset : Nat) (recv : Bytes) (h h' : ClientHandshake) (D' : Bytes), offset ≤ B.length → RInv env n ch w recv h → TakenFrom read recv →
      recv.length + (B.length - offset) < 2 ^ 50 → recordsLoop env rx fuel offset D h = (.ok D', h') →
      ∃ recv', RInv env n ch w recv' h' ∧ TakenFrom read recv' ∧ recv'.length ≤ recv.length + (B.length - offset) ∧
        h'.stream.stream.incoming = h.stream.stream.incoming ∧ D' <:+ B
  | 0, _, _, _, _, _, _, _, _, _, hw => absurd hw Step.crash_ok
  | fuel + 1, offset, recv, h, h', D', ho, hi, ht, hsz, hw => by
    unfold recordsLoop at hw
    by_cases hcont : offset < rx.length ∨ D ≠ []
    swap
    · rw [if_neg hcont] at hw
      obtain ⟨rfl, rfl⟩ := Step.pure_ok.1 hw
      have : D' = [] := by
        by_contra hne
        exact hcont (.inr hne)
      exact ⟨recv, hi, ht, by omega, rfl, by rw [this]; exact List.nil_suffix⟩
    rw [if_pos hcont] at hw
    slift hw with ⟨buf, e1, hw⟩
    have hbuf : buf = B.drop offset := by
      rw [hB]
      split_ifs at e1 ⊢ with hD
      · unfold sliceFrom at e1
        split_ifs at e1
        exact (Res.ok.inj e1).symm
      · unfold sliceFrom at e1
        split_ifs at e1
        exact (Res.ok.inj e1).symm
    cases hr : Record.fromRaw buf with
    | panic => rw [hr] at hw; exact absurd hw Step.crash_ok
    | err e =>
      rw [hr] at hw
      obtain ⟨rfl, rfl⟩ := Step.pure_ok.1 hw
      refine ⟨recv, hi, ht, by omega, rfl, ?_⟩
      rw [hB]
      split_ifs with hD
      · exact List.drop_suffix _ _
      · exact List.suffix_refl _
    | ok v =>
      obtain ⟨k, record⟩ := v
      rw [hr] at hw
      simp only [] at hw
      sbind hw with ⟨u, h1, e2, hw⟩
      obtain ⟨hrec, _, _, _, _, hk5, hkl⟩ := fromRaw_isRecord hr
      have hbl : buf.length = B.length - offset := by rw [hbuf, List.length_drop]
      obtain ⟨g1, g2⟩ := record_inv e2 hcl hch hr (by omega) hi
      have hrl : (recv ++ buf.take k).length = recv.length + k := by rw [List.length_append, List.length_take]; omega
      have ht' : TakenFrom read (recv ++ buf.take k) := by
        refine .snoc _ _ _ _ ht hrec ?_
        have h1 : buf.take k <:+: B := by
          rw [hbuf]
          exact (List.take_prefix _ _).isInfix.trans (List.drop_suffix _ _).isInfix
        exact h1.trans hBr.isInfix
      split_ifs at hw with hend
      · obtain ⟨rfl, rfl⟩ := Step.pure_ok.1 hw
        exact ⟨_, g1, ht', by rw [hrl]; omega, g2, List.nil_suffix⟩
      · obtain ⟨recv', j1, j2, j3, j4, j5⟩ := records_inv hcl hch hB hBr fuel (offset + k) _ _ _ _ (by omega) g1 ht' (by rw [hrl]; omega) hw
        rw [hrl] at j3
        exact ⟨recv', j1, j2, by omega, by rw [j4, g2], j5⟩

theorem inv_stream {env : ClientEnv} {n : Int} {ch w recv : Bytes} {h : ClientHandshake} (s : TlsStream) (ho : out s = out h.stream)
    (hp : s.protection = h.stream.protection) (hi : RInv env n ch w recv h) : RInv env n ch w recv { h with stream := s } := by
  unfold RInv Inv Done Got at hi ⊢
  simp only [] at hi ⊢
  rw [ho, hp]
  exact hi

theorem read_inv {env : ClientEnv} {n : Int} {ch w total : Bytes} (hcl : ∀ c, env.config.clientCert = some c → c.raw.length < 2 ^ 24)
    (hch : ch.length < 2 ^ 26) (htot : total.length < 2 ^ 24) :
    ∀ (fuel : Nat) (D read recv : Bytes) (h h' : ClientHandshake), RInv env n ch w recv h → h.stream.buffer = [] → D <:+ read →
      total = read ++ h.stream.stream.incoming.flatten → TakenFrom read recv → recv.length ≤ read.length * total.length →
      readLoop env fuel D h = (.ok (), h') → h'.state = .ready ∧ h'.stream.buffer = [] ∧
        ∃ read' recv', RInv env n ch w recv' h' ∧ TakenFrom read' recv' ∧ total = read' ++ h'.stream.stream.incoming.flatten ∧ recv'.length < 2 ^ 50
  | 0, _, _, _, _, _, _, _, _, _, _, _, hw => absurd hw Step.crash_ok
  | fuel + 1, D, read, recv, h, h', hi, hb, hD, htt, htk, hsz, hw => by
    have hmul : ∀ l, l ≤ total.length → l * total.length < 2 ^ 50 := by
      intro l hl
      calc l * total.length ≤ 2 ^ 24 * 2 ^ 24 := Nat.mul_le_mul (by omega) (by omega)
        _ < 2 ^ 50 := by norm_num
    unfold readLoop at hw
    rw [Step.bind_get] at hw
    by_cases hs : h.state = .ready
    · rw [if_pos hs] at hw
      obtain ⟨_, rfl⟩ := Step.pure_ok.1 hw
      refine ⟨hs, hb, read, recv, hi, htk, htt, lt_of_le_of_lt hsz (hmul _ ?_)⟩
      rw [htt, List.length_append]; omega
    rw [if_neg hs] at hw
    sbind hw with ⟨rx, h1, e1, hw⟩
    obtain ⟨s1, e1', rfl⟩ := onStream_ok e1
    obtain ⟨g1, g2, g3, g4, g5, g6⟩ := read_ok e1'
    sbind hw with ⟨D', h2, e2, hw⟩
    obtain ⟨E, hE⟩ : ∃ E, E = if D = [] then [] else D ++ rx := ⟨_, rfl⟩
    rw [← hE] at e2
    obtain ⟨B, hB⟩ : ∃ B, B = if E = [] then rx else E := ⟨_, rfl⟩
    have hBr : B <:+ read ++ rx := by
      rw [hB]
      by_cases hd : D = []
      · rw [if_pos hd] at hE
        rw [if_pos hE]
        exact List.suffix_append _ _
      · rw [if_neg hd] at hE
        rw [if_neg (by rw [hE]; simp [hd]), hE]
        obtain ⟨pre, hpre⟩ := hD
        exact ⟨pre, by rw [← hpre, List.append_assoc]⟩
    have hrxl : 1 ≤ rx.length := List.length_pos_of_ne_nil g3
    have htl : total.length = read.length + rx.length + s1.stream.incoming.flatten.length := by
      rw [htt, g1, List.length_append, List.length_append]; omega
    have hBl : B.length ≤ total.length := by
      have := hBr.length_le
      rw [List.length_append] at this
      omega
    have hgrow : recv.length + B.length ≤ (read ++ rx).length * total.length := by
      rw [List.length_append]
      calc recv.length + B.length ≤ read.length * total.length + 1 * total.length := by omega
        _ = (read.length + 1) * total.length := by rw [Nat.add_mul]
        _ ≤ (read.length + rx.length) * total.length := Nat.mul_le_mul (by omega) (le_refl _)
    have hbig := hmul (read ++ rx).length (by rw [List.length_append]; omega)
    obtain ⟨recv', i1, i2, i3, i4, i5⟩ := records_inv hcl hch hB hBr _ 0 recv _ h2 D' (Nat.zero_le _)
      (inv_stream s1 (by unfold out; rw [g5, g6]) g4 hi) (taken_mono htk) (by omega) e2
    sbind hw with ⟨u, h3, e3, hw⟩
    obtain ⟨s3, e3', rfl⟩ := onStream_ok e3
    obtain ⟨j1, j2, j3, j4⟩ := flush_ok e3'
    exact read_inv hcl hch htot fuel D' (read ++ rx) recv' _ h' (inv_stream s3 j1 j3 i1) j2 (i5.trans hBr) (by
      change _ = _ ++ s3.stream.incoming.flatten
      rw [j4, i4, htt, g1, List.append_assoc]) i2 (by omega) hw

/-- A stream is handed out only in the state `ready`, with the invariant. -/
theorem connect_inv {env : ClientEnv} {reads : List Bytes} {sock : Socket} {s : TlsStream} {h : Option ClientHandshake}
    (hcl : ∀ c, env.config.clientCert = some c → c.raw.length < 2 ^ 24) (hn : ∀ n, env.config.serverName = some n → n.length < 2 ^ 24)
    (hin : sock.incoming.flatten.length < 2 ^ 24) (hw : ClientConnection.connect env reads sock = (.ok s, h)) :
    ∃ h' n ch k read recv, h = some h' ∧ s = h'.stream ∧ h'.state = .ready ∧ s.buffer = [] ∧ Offered env reads n ch ∧
      (sock.failures = [] → k = (Tls13.plainRecord 22#8 ch).length) ∧ ch.length < 2 ^ 26 ∧
      RInv env n ch (sock.written ++ (Tls13.plainRecord 22#8 ch).take k) recv h' ∧ TakenFrom read recv ∧
      sock.incoming.flatten = read ++ s.stream.incoming.flatten ∧ recv.length < 2 ^ 50 := by
  unfold ClientConnection.connect ClientHandshake.new at hw
  cases hb : ((Rng.urandom reads).between 1 32 : Res TlsError (Int × Rng)) with
  | err e => rw [hb] at hw; cases hw
  | panic => rw [hb] at hw; cases hw
  | ok v =>
    obtain ⟨n, rng⟩ := v
    rw [hb] at hw
    simp only [Res.ok_bind] at hw
    obtain ⟨h0, hh0⟩ : ∃ h0, h0 = ClientHandshake.mk (TlsStream.new sock) .serverHello none none rng none ⟨.curve25519, n⟩ none none none [] := ⟨_, rfl⟩
    rw [← hh0] at hw
    rcases hd : doHandshakeWithError env h0 with ⟨r, h1⟩
    rw [hd] at hw
    cases r with
    | err e => cases hw
    | panic => cases hw
    | ok u =>
      simp only [] at hw
      have hs := Res.ok.inj (Prod.mk.inj hw).1
      have hh := (Prod.mk.inj hw).2
      unfold doHandshakeWithError at hd
      rcases hd2 : doHandshake env h0 with ⟨r, h2⟩
      rw [hd2] at hd
      cases r with
      | err e =>
        simp only [] at hd
        split_ifs at hd
        · sbind hd with ⟨v, h3, e3, hd⟩
          exact absurd hd Step.throw_ok
        · exact absurd hd Step.throw_ok
      | panic => cases hd
      | ok u =>
        simp only [] at hd
        have hh2 := (Prod.mk.inj hd).2
        subst hh2
        unfold doHandshake at hd2
        sbind hd2 with ⟨u, h3, e3, hd2⟩
        obtain ⟨ch, k, g1, g2, g3, g4, g5, g6, g7, g8, g9, g10, g11, g12, g13, g14⟩ := hello_ok (reads := reads) (n := n) e3 (by rw [hh0]; exact hb) (by rw [hh0]) hn
          (by rw [hh0]; rfl)
        obtain ⟨i1, i2, read, recv, i3, i4, i5, i6⟩ := read_inv (n := n) (ch := ch) (w := sock.written ++ (Tls13.plainRecord 22#8 ch).take k)
          (total := sock.incoming.flatten) hcl g2 hin _ [] [] [] h3 h2 (by
            unfold RInv
            rw [g8, hh0]
            refine ⟨rfl, by rw [g9, hh0]; rfl, g5, by rw [g7, hh0], ?_, by rw [g6, hh0], by rw [g12, hh0], by rw [g13, hh0], g14⟩
            rw [g3, hh0]
            simp [out, TlsStream.new]) g10 List.nil_suffix (by rw [g11, hh0]; rfl) .nil (by simp) hd2
        subst hs
        refine ⟨h2, n, ch, k, read, recv, hh.symm, rfl, i1, i2, g1, ?_, g2, i3, i4, i5, i6⟩
        intro hf
        exact g4 (by rw [hh0]; exact hf)

end ClientProof
end ATLS
