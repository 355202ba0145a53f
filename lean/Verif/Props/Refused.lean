import Verif.Props.ServerComplete
import Verif.Props.Alerts
import Verif.Proof.Early
/-
C104: the alert that ends a handshake can be read by the peer.
-/
namespace ATLS
open ATLS.Model ATLS.Spec FlowProof

/-- RFC 8446 section 6: `wire` is the protected record of an alert with this level and description. -/
def AlertRecord (aead : Tls13.Seal) (key iv : Bytes) (seq : Nat) (level description : Byte) (wire : Bytes) : Prop :=
  Tls13.Protected aead key iv seq 21#8 [level, description] wire

/-- The server gives up with the error `e` of its own: not because of an alert it received, and not because the connection broke. -/
def OwnError (env : ServerEnv) (reads incoming : List Bytes) (e : TlsError) : Prop :=
  ¬ NotAnswered e ∧ ∃ h, ServerHandshake.doHandshake env (ServerHandshake.new env (TlsStream.new ⟨incoming, [], []⟩) reads) = (.err e, h)

/-- The content `m` of a record is a Certificate message with the context `c` of the request that the server does not accept, and `e` says why: the list
cannot be taken (`Certificate::from_hello` returns `e`), or its last certificate is not one of the client CA (`UnknownCa`), or the custom function
denies it (`AccessDenied`). -/
def Refused (env : ServerEnv) (c m : Bytes) (e : TlsError) : Prop :=
  ∃ (ca : Certificate) (hs : Handshake) (rest : Bytes), env.config.clientCertCa = some ca ∧ Handshake.fromRaw m = .ok hs ∧ hs.handshakeType = .certificate ∧
    hs.fraqment = beBytes 1 c.length ++ c ++ rest ∧
    (Certificate.fromHello env.now hs.fraqment = .err e ∨
      ∃ certs cert, Certificate.fromHello env.now hs.fraqment = .ok certs ∧ certs.getLast? = some cert ∧
        ((∃ e', ca.hasSigned cert = .err e') ∧ e = .unknownCa ∨
          ca.hasSigned cert = .ok () ∧ ∃ x f, cert.x509 = some x ∧ env.config.clientCertCustomVerifyFn = some f ∧ f x = false ∧ e = .accessDenied))

namespace AlertProof
open RecProof

/-- The alert written by a stream with keys. -/
theorem alert_sealed {cs : CipherSuite} {s : TlsStream} {p : RecordPayloadProtection} {e : TlsError} {seq : Nat} (hp : s.protection = some p) (hc : cs.getCipher = .ok p.cipher)
    (hk : KeyOk cs (wKey p)) (hs : (wKey p).sequenceNumber = BitVec.ofNat 64 seq) (hn : seq < 2 ^ 63) (hf : s.stream.failures = []) :
    ∃ w s', s.writeAlert e = (.ok (), s') ∧ s'.stream.written = s.stream.written ++ w ∧
      Tls13.Protected (aead p.cipher) (wKey p).key (wKey p).iv seq 21#8 (alertContent e) w := by
  obtain ⟨wire, p', he, hsl, _⟩ := encrypt_spec cs p hc hk (by rw [hs]; exact seq_ne hn) .alert (alertContent e) (by simp [alertContent])
  have he' : p.encrypt (Record.new .alert [(AlertLevel.getFromError e).code, e.asU8]) = (.ok wire, p') := he
  obtain ⟨ct, tag, hw, henc, _, _⟩ := hsl
  have hne : wire ≠ [] := by rw [hw]; simp
  refine ⟨wire, ⟨{ s.stream with written := s.stream.written ++ wire }, some p', s.buffer⟩, ?_, rfl, ct, tag, 0, by simp [alertContent], ?_, ?_⟩
  · unfold TlsStream.writeAlert TlsStream.protectRecord
    simp only [hp, he', Socket.writeAll, hf]
    rw [if_neg hne]
  · rw [hw]
    simp [Tls13.protectedHeader]
  · have : (wKey p).sequenceNumber.toNat = seq := by rw [hs, BitVec.toNat_ofNat, Nat.mod_eq_of_lt (by omega)]
    rw [this] at henc
    unfold FlowProof.aead
    simp only [Tls13.protectedHeader]
    rw [show RecordType.alert.code = 21#8 from rfl] at henc
    rw [henc]

theorem writeAll_written (s : Socket) (b : Bytes) : ∃ w, (s.writeAll b).2.written = s.written ++ w := by
  unfold Socket.writeAll
  split
  · exact ⟨[], by simp⟩
  · split
    · exact ⟨_, rfl⟩
    · exact ⟨_, rfl⟩
    · exact ⟨_, rfl⟩

theorem flush_written (s : TlsStream) : ∃ w, s.flush.2.stream.written = s.stream.written ++ w := by
  obtain ⟨w, hw⟩ := writeAll_written s.stream s.buffer
  unfold TlsStream.flush
  rcases h : s.stream.writeAll s.buffer with ⟨b, sock⟩
  rw [h] at hw
  cases b <;> exact ⟨w, hw⟩

/-- What is already sent stays sent. -/
theorem handed_written {s s' : TlsStream} {l : List (RecordType × Bytes)} (h : Handed s l s') : s.stream.written <+: s'.stream.written := by
  induction h with
  | refl => exact List.prefix_rfl
  | @write s1 s2 l r t d _ hw ih =>
    refine ih.trans ?_
    have e : s2 = (s1.writeRecord t d).2 := by rw [hw]
    rw [e]
    unfold TlsStream.writeRecord TlsStream.protectRecord
    cases s1.protection with
    | none =>
      simp only []
      split
      · obtain ⟨w, hw⟩ := flush_written { s1 with buffer := s1.buffer ++ (Record.new t d).asBytes }
        exact ⟨w, hw.symm⟩
      · exact List.prefix_rfl
    | some p =>
      simp only []
      rcases p.encrypt (Record.new t d) with ⟨_ | _ | _, p'⟩
      · simp only []
        split
        · obtain ⟨w, hw⟩ := flush_written ⟨s1.stream, some p', s1.buffer ++ _⟩
          exact ⟨w, hw.symm⟩
        · exact List.prefix_rfl
      · exact List.prefix_rfl
      · exact List.prefix_rfl
  | @hello s1 s2 l r t d _ hw ih =>
    refine ih.trans ?_
    have e : s2 = (s1.tcpWrite (Record.new t d).asBytes).2 := by rw [hw]
    rw [e]
    unfold TlsStream.tcpWrite Socket.write
    rcases s1.stream.failures with _ | ⟨_ | _ | _, fs⟩
    · exact ⟨_, rfl⟩
    · exact ⟨_, rfl⟩
    · exact List.prefix_rfl
    · exact ⟨_, rfl⟩
  | @read s1 s2 l r cap _ hr ih =>
    refine ih.trans ?_
    have e : s2 = (s1.tcpRead cap).2 := by rw [hr]
    rw [e]
    unfold TlsStream.tcpRead
    split
    · exact List.prefix_rfl
    · simp only []
      split <;> exact List.prefix_rfl
  | @flush s1 s2 l r _ hr ih =>
    refine ih.trans ?_
    have e : s2 = s1.flush.2 := by rw [hr]
    rw [e]
    obtain ⟨w, hw⟩ := flush_written s1
    exact ⟨w, hw.symm⟩
  | protect p _ ih => exact ih

end AlertProof

namespace ServerProof
open ServerHandshake

/-- When the first record comes in a read of its own, what the server prepared in answer is sent before the next read. -/
theorem sent_first (env : ServerEnv) (rng : List Bytes) {w : Bytes} {rest : List Bytes} {k : ServerHandshake} (hw : Tls13.WholeRecord w) (hl : w.length ≤ 4096)
    (hk : feed env [w] (base env rng) = (.ok (), k)) :
    out k.stream <+: (doHandshake env (ServerHandshake.new env (TlsStream.new ⟨w :: rest, [], []⟩) rng)).2.stream.stream.written := by
  unfold doHandshake
  have ha : Alike [] rest (base env rng) { (ServerHandshake.new env (TlsStream.new ⟨w :: rest, [], []⟩) rng) with stream := TlsStream.new ⟨rest, [], []⟩ } :=
    ⟨_, rfl, rfl, rfl, rfl, rfl, rfl, rfl⟩
  obtain ⟨h1, h2⟩ := feed_rel env [w] _ _ ha
  have hr := read_step env (g := [w]) (rest := rest) ((((w :: rest).map List.length).sum + (w :: rest).length) + 1) (ServerHandshake.new env (TlsStream.new ⟨w :: rest, [], []⟩) rng)
    (by simpa using hw) (by simp) (by simpa using hl) (by simp [ServerHandshake.new, TlsStream.new]) (by simp [ServerHandshake.new])
  refine (congrArg (fun z => out k.stream <+: z.2.stream.stream.written) hr).mpr ?_
  rw [hk] at h1 h2
  rcases hk2 : feed env [w] { (ServerHandshake.new env (TlsStream.new ⟨w :: rest, [], []⟩) rng) with stream := TlsStream.new ⟨rest, [], []⟩ } with ⟨r, k1⟩
  rw [hk2] at h1 h2
  simp only [] at h1 h2
  subst h1
  have hk3 : feed env [w] { (ServerHandshake.new env (TlsStream.new ⟨w :: rest, [], []⟩) rng) with
      stream := { (ServerHandshake.new env (TlsStream.new ⟨w :: rest, [], []⟩) rng).stream with
        stream := { (ServerHandshake.new env (TlsStream.new ⟨w :: rest, [], []⟩) rng).stream.stream with incoming := rest } } } = (.ok (), k1) := hk2
  obtain ⟨k2, e1, e2, e3⟩ := alike_flush h2
  rw [Step.bind_of_ok hk3, Step.bind_of_ok e1]
  obtain ⟨s, rfl, hs⟩ := e2
  have hout : s.stream.written = out k.stream := by
    have := hs.output
    unfold out at this
    rw [show s.buffer = [] from e3, List.append_nil] at this
    exact this
  obtain ⟨l, hh, _⟩ := (AlertProof.server_keeps env s).reads (((w :: rest).map List.length).sum + (w :: rest).length + 1) { k with stream := s } ⟨[], .refl _, by simp⟩
  rw [← hout]
  exact AlertProof.handed_written hh

/-- The client's hello comes first, in a read of its own; its further records make the server stop with an error. Then everything the server had prepared
is on the wire, and behind it the alert for the error. -/
theorem accept_alert (env : ServerEnv) (rng : List Bytes) {w : Bytes} {records incoming : List Bytes} {k0 k : ServerHandshake} {e : TlsError} {Q : Bytes → Prop}
    (hw : NoAlert w) (hl : w.length ≤ 4096) (hr : ∀ r ∈ records, NoAlert r) (hd : Tls13.Delivers 4096 records incoming)
    (h0 : feed env [w] (base env rng) = (.ok (), k0)) (h1 : feed env records k0 = (.err e, k)) (ho : out k.stream = out k0.stream) (he : ¬ NotAnswered e)
    (ha : ∀ s : TlsStream, s.protection = k.stream.protection → s.stream.failures = [] →
      ∃ a s', s.writeAlert e = (.ok (), s') ∧ s'.stream.written = s.stream.written ++ a ∧ Q a) :
    ∃ h a, ServerConnection.accept env rng ⟨w :: incoming, [], []⟩ = (.err e, h) ∧ h.stream.stream.written = out k0.stream ++ a ∧ Q a := by
  obtain ⟨groups, rfl, rfl, hg⟩ := hd
  have hall : ∀ r ∈ w :: groups.flatten, NoAlert r := by
    intro r hm
    rcases List.mem_cons.1 hm with rfl | hm
    · exact hw
    · exact hr r hm
  have hd : Tls13.Delivers 4096 (w :: groups.flatten) (w :: groups.map List.flatten) :=
    ⟨[w] :: groups, by simp, by simp, by
      intro g hgm
      rcases List.mem_cons.1 hgm with rfl | hgm
      · exact ⟨by simp, by simpa using hl⟩
      · exact hg g hgm⟩
  have o := run_outcome env rng (fun r hm => (hall r hm).whole) hd (fun a v b hab k' _ _ => (hall v (by rw [← hab]; simp)).not_alert)
  have hf : feed env (w :: groups.flatten) (base env rng) = (.err e, k) := by
    rw [show w :: groups.flatten = [w] ++ groups.flatten from rfl, feed_append, Step.bind_of_ok h0, h1]
  rw [hf] at o
  obtain ⟨o1, s, hks, hs⟩ := o
  have hp := sent_first env rng (rest := groups.map List.flatten) hw.whole hl h0
  rcases e1 : doHandshake env (ServerHandshake.new env (TlsStream.new ⟨w :: groups.map List.flatten, [], []⟩) rng) with ⟨r1, k1⟩
  rw [e1] at o1 hks hp
  simp only [] at o1 hks hp
  subst o1 hks
  have hout : s.stream.written = out k0.stream := by
    have h2 := hs.output
    rw [ho] at h2
    simp only [] at hp
    rw [← h2] at hp ⊢
    exact List.IsPrefix.eq_of_length_le ⟨s.buffer, rfl⟩ hp.length_le
  obtain ⟨a, s', a1, a2, a3⟩ := ha s hs.protection hs.calm'
  have hrep : reported e = e := by
    unfold reported
    split
    · exact absurd (.inl ⟨_, rfl⟩) he
    · rfl
  refine ⟨{ k with stream := s' }, a, ?_, by rw [← hout]; exact a2, a3⟩
  unfold ServerConnection.accept doHandshakeWithError
  rw [e1]
  simp only []
  rw [if_pos (by
    have := mt (AlertProof.notAnswered_iff e).2 he
    simpa using this)]
  have hst : (onStream fun s => s.writeAlert e) { k with stream := s } = (.ok (), { k with stream := s' }) := by
    unfold onStream
    simp only [a1]
  rw [Step.bind_of_ok hst, hrep]
  rfl

/-- A Certificate message the server refuses: the error is recorded, the transcript goes on. -/
theorem refuse_of {env : ServerEnv} {h : ServerHandshake} {t : HashType} {m content c : Bytes} {e : TlsError}
    (ht : h.tshash = some (ts t m)) (hc : h.certificateRequestContext = some c) (hcl : c.length = 32) (hr : Refused env c content e) :
    handleClientCertificate env (Record.new .handshake content) h = (.ok (), { h with
      tshash := some (ts t (m ++ content)), tshashClienthelloServerfinished := some (ts t m), state := .finishWithError e }) := by
  obtain ⟨ca, hs, rest, hca, e1, hty, hfr, hwhy⟩ := hr
  have hlen : (beBytes 1 c.length) = [32#8] := by rw [hcl]; rfl
  unfold handleClientCertificate
  have e1' : Handshake.fromRaw (Record.new .handshake content).fraqment = .ok hs := e1
  rw [Step.bind_lift_ok e1', hca]
  simp only []
  rw [if_neg (by simp [hty])]
  refine (Step.bind_of_ok (tshash_of ht)).trans ?_
  rw [Step.bind_modify]
  refine (Step.bind_of_ok (update_of (h := { h with tshashClienthelloServerfinished := some (ts t m) }) ht _)).trans ?_
  have hi : (idx hs.fraqment 0 : Res TlsError Byte) = .ok 32#8 := by rw [hfr, hlen]; rfl
  refine (Step.bind_lift_ok hi _ _).trans ?_
  have hsl : (slice hs.fraqment 1 ((32#8 : Byte).toNat + 1) : Res TlsError Bytes) = .ok c := by
    rw [hfr, hlen]
    unfold slice
    rw [if_pos (by simp; omega)]
    simp only [List.cons_append, List.nil_append, List.drop_succ_cons, List.drop_zero]
    rw [List.take_left' (by rw [hcl]; rfl)]
  refine (Step.bind_lift_ok hsl _ _).trans ?_
  rw [Step.bind_get]
  have hu : (Res.unwrap ({ h with tshashClienthelloServerfinished := some (ts t m), tshash := some ((ts t m).update (Record.new .handshake content).fraqment) } : ServerHandshake).certificateRequestContext :
      Res TlsError Bytes) = .ok c := by
    show Res.unwrap h.certificateRequestContext = _
    rw [hc]; rfl
  refine (Step.bind_lift_ok hu _ _).trans ?_
  rw [if_neg (by simp)]
  rcases hwhy with h1 | ⟨certs, cert, h1, h2, h3⟩
  · rw [h1]
    simp only []
    rw [ts_update]
    rfl
  · rw [h1]
    simp only []
    have hlast : (Res.unwrap certs.getLast? : Res TlsError Certificate) = .ok cert := by rw [h2]; rfl
    rw [Step.bind_lift_ok hlast]
    rcases h3 with ⟨⟨e', h3⟩, rfl⟩ | ⟨h3, x, f, hx, hf, hfx, rfl⟩
    · rw [h3]
      simp only []
      rw [ts_update]
      rfl
    · rw [h3]
      simp only []
      rw [Step.bind_lift_ok (a := x) (by rw [hx]; rfl), hf]
      simp only [hfx]
      rw [if_pos (by simp), ts_update]
      rfl

/-- Another message after the refused certificate only goes into the transcript. -/
theorem skip_of {h : ServerHandshake} {t : HashType} {ty : HandshakeType} {m body : Bytes} {e : TlsError} (hst : h.state = .finishWithError e)
    (ht : h.tshash = some (ts t m)) (hty : ty ≠ .finished) (hl : body.length < 2 ^ 24) :
    handleClientFinish (Record.new .handshake (Tls13.handshakeMessage ty.code body)) h =
      (.ok (), { h with tshash := some (ts t (m ++ Tls13.handshakeMessage ty.code body)) }) := by
  have e1 := fromRaw_message ty body [] hl
  rw [List.append_nil] at e1
  unfold handleClientFinish
  have e1' : Handshake.fromRaw (Record.new .handshake (Tls13.handshakeMessage ty.code body)).fraqment = _ := e1
  rw [Step.bind_lift_ok e1', Step.bind_get, if_pos hty, hst]
  simp only []
  rw [update_of ht, ts_update, hst]

/-- The right Finished after a refused certificate: the application keys are installed and the handshake ends with the recorded error. -/
theorem denied_of {x : Params} (hx : x.Ok) {h : ServerHandshake} {p : RecordPayloadProtection} {nw nr : Nat} {m0 m rest : Bytes} {e : TlsError}
    (hst : h.state = .finishWithError e) (hp : h.stream.protection = some p) (hk : HsProt x false p nw nr)
    (ht : h.tshash = some (ts x.t m)) (h0 : h.tshashClienthelloServerfinished = some (ts x.t m0)) (hm0 : m0.length < 2 ^ 53) (hm : m.length < 2 ^ 53) :
    ∃ h' p', handleClientFinish (Record.new .handshake (x.sess.finished .client m ++ rest)) h = (.err e, h') ∧ h'.stream = h.stream.setProtection (some p') ∧
      RecProof.wKey p' = x.appKey m0 .server ∧ p'.cipher = x.c := by
  obtain ⟨vd, hvd⟩ : ∃ vd, vd = Tls13.verifyData (rfcHash x.t) (x.sess.secret .client) ((rfcHash x.t).H m) := ⟨_, rfl⟩
  have hfl := finished_le x .client m hm
  have hfin : x.sess.finished .client m = Tls13.handshakeMessage HandshakeType.finished.code vd := by rw [hvd]; rfl
  have hvl : vd.length ≤ 52 := by
    rw [hfin] at hfl
    simp only [Tls13.handshakeMessage, List.length_append, beBytes_length, List.length_cons, List.length_nil] at hfl
    omega
  have e1 : Handshake.fromRaw (Record.new .handshake (x.sess.finished .client m ++ rest)).fraqment =
      .ok ⟨.finished, vd, Tls13.handshakeMessage HandshakeType.finished.code vd⟩ := by
    rw [hfin]
    exact fromRaw_message .finished vd rest (by omega)
  unfold handleClientFinish
  rw [Step.bind_lift_ok e1, Step.bind_get, if_neg (by simp)]
  have hgp : getProtection h = (.ok p, h) := by
    unfold getProtection
    rw [hp]
    rfl
  have hks : p.keySchedule.clientHandshakeTrafficSecret = ⟨x.t, x.sess.secret .client⟩ := by rw [hk.ks]; rfl
  have hv := verify_data x .client m hm
  rw [← hvd, ← hks] at hv
  obtain ⟨p', hg⟩ := generate_of hx hk m0
  obtain ⟨q1, _, q2, _⟩ := generate_app hx hk hm0 hg
  have hg' : p.generateApplicationKeys (match h.tshashClienthelloServerfinished with
      | some t' => t'
      | none => ts x.t m) = .ok p' := by rw [h0]; exact hg
  obtain ⟨l, hlog⟩ := logApp_of p' { h with stream := h.stream.setProtection (some p') }
  refine ⟨{ h with stream := h.stream.setProtection (some p'), logged := l }, p', ?_, rfl, q1, q2⟩
  refine (Step.bind_of_ok hgp).trans ?_
  refine (Step.bind_of_ok (tshash_of ht)).trans ?_
  refine (Step.bind_lift_ok hv _ _).trans ?_
  rw [if_neg (by simp)]
  refine (Step.bind_lift_ok hg' _ _).trans ?_
  unfold setProtection
  rw [Step.bind_modify]
  refine (Step.bind_of_ok hlog).trans ?_
  rw [hst]
  rfl

/-- A Finished message with other verify data where the right one is expected: the handshake ends with `DecryptError` and the keys stay. -/
theorem wrong_of {x : Params} {h : ServerHandshake} {p : RecordPayloadProtection} {nw nr : Nat} {m vd rest : Bytes}
    (hp : h.stream.protection = some p) (hk : HsProt x false p nw nr) (ht : h.tshash = some (ts x.t m)) (hm : m.length < 2 ^ 53) (hl : vd.length < 2 ^ 24)
    (hne : vd ≠ Tls13.verifyData (rfcHash x.t) (x.sess.secret .client) ((rfcHash x.t).H m)) :
    handleClientFinish (Record.new .handshake (Tls13.handshakeMessage 20#8 vd ++ rest)) h = (.err .decryptError, h) := by
  have e1 : Handshake.fromRaw (Record.new .handshake (Tls13.handshakeMessage 20#8 vd ++ rest)).fraqment =
      .ok ⟨.finished, vd, Tls13.handshakeMessage 20#8 vd⟩ := fromRaw_message .finished vd rest hl
  unfold handleClientFinish
  rw [Step.bind_lift_ok e1, Step.bind_get, if_neg (by simp)]
  have hgp : getProtection h = (.ok p, h) := by
    unfold getProtection
    rw [hp]
    rfl
  have hks : p.keySchedule.clientHandshakeTrafficSecret = ⟨x.t, x.sess.secret .client⟩ := by rw [hk.ks]; rfl
  have hv := verify_data x .client m hm
  rw [← hks] at hv
  refine (Step.bind_of_ok hgp).trans ?_
  refine (Step.bind_of_ok (tshash_of ht)).trans ?_
  refine (Step.bind_lift_ok hv _ _).trans ?_
  rw [if_pos hne]
  rfl

/-- The state after the client's hello. -/
theorem server_begun {env : ServerEnv} {reads : List Bytes} {x : Params} {ch sh ccs chRec : Bytes} {rng : Rng} {context : Option Bytes} {flight : List Bytes}
    (hu : env.config.prngType = .urandom) (hcl : env.config.cert.raw.length + 200 ≤ 2 ^ 24) (hrec : Tls13.IsRecord 22#8 ch chRec) (hl : ch.length ≤ 4096)
    (ha : HelloAnsweredBy env reads x ch sh ccs rng) (hd : Drawn env rng context) (hf : ServerFlight env x context flight) :
    ∃ swire p k, x.Ok ∧ Tls13.Sent (aead x.c) (x.sess.key .server) (x.sess.iv .server) 0 flight swire ∧ feed env [chRec] (base env reads) = (.ok (), k) ∧
      FlowProof.out k.stream = Tls13.plainRecord 22#8 sh ++ ccs ++ swire ∧ k.stream.protection = some p ∧ HsProt x false p flight.length 0 ∧
      k.state = (if env.config.clientCertCa.isSome then .clientCertificate else .clientFinished) ∧ k.tshash = some (ts x.t (x.hellos ++ flight.flatten)) ∧
      k.certificateRequestContext = context ∧ k.tshashClienthelloServerfinished = none ∧ (x.hellos ++ flight.flatten).length < 2 ^ 27 ∧
      ∃ record, handleClientHello env record (base env reads) = (.ok (), k) := by
  obtain ⟨v1, v2, hchl, rfl⟩ := hrec
  have hraw := RecProof.fromRaw_header .handshake v1 v2 ch [] hchl
  rw [List.append_nil] at hraw
  rw [RecProof.beBytes2]
  obtain ⟨record, hrecord⟩ : ∃ record : Record, record = ⟨.handshake, v1.toNat * 256 + v2.toNat, ch.length,
    [RecordType.handshake.code, v1, v2, BitVec.ofNat 8 (ch.length / 256), BitVec.ofNat 8 ch.length], ch⟩ := ⟨_, rfl⟩
  rw [← hrecord] at hraw
  have hfrag : record.fraqment = ch := by rw [hrecord]
  have hb : (base env reads).rng = .urandom reads := by
    show (match env.config.prngType with
      | .simple => Rng.simple 0
      | .urandom => Rng.urandom reads) = _
    rw [hu]
  obtain ⟨swire, p, k0, a1, hx, a3, a4, a5, a6, a7, a8, a9, a10, a11, a12, a13, a14⟩ := hello_of (h := base env reads) (record := record)
    (by rw [hfrag]; exact ha) hd hf hb hcl rfl (by rw [hfrag]; exact hl) rfl rfl
  have hh : handleRecord env record (base env reads) = (.ok (), k0) := by
    unfold handleRecord
    rw [Step.bind_get, hrecord]
    simp only []
    have : (base env reads).state = .clientHello := rfl
    rw [this]
    simp only []
    rw [if_neg (by decide), ← hrecord]
    exact a1
  exact ⟨swire, p, k0, hx, a6, feed_of hraw hh, a7, a8, a9, a10, a11, a13, a14, by rw [List.length_append]; omega, record, a1⟩

/-- After a refused certificate: the messages up to the Finished, one in each record. -/
theorem skip_feed {env : ServerEnv} {x : Params} (hx : x.Ok) {m0 c rest : Bytes} {e : TlsError} {nw : Nat} (hm0 : m0.length < 2 ^ 53) :
    ∀ (more ws : List Bytes) (h : ServerHandshake) (p : RecordPayloadProtection) (nr : Nat) (m : Bytes),
    (∀ b ∈ more, ∃ (ty : HandshakeType) (body : Bytes), ty ≠ .finished ∧ body.length < 2 ^ 24 ∧ b = Tls13.handshakeMessage ty.code body) →
    Plain (aead x.c) (x.sess.key .client) (x.sess.iv .client) nr (more ++ [x.sess.finished .client (m ++ more.flatten) ++ rest]) ws →
    h.state = .finishWithError e → h.stream.protection = some p → HsProt x false p nw nr → nr + more.length < 2 ^ 63 → h.tshash = some (ts x.t m) →
    h.tshashClienthelloServerfinished = some (ts x.t m0) → h.certificateRequestContext = some c → (m ++ more.flatten).length < 2 ^ 53 →
    ∃ k p', feed env ws h = (.err e, k) ∧ k.stream = h.stream.setProtection (some p') ∧ RecProof.wKey p' = x.appKey m0 .server ∧ p'.cipher = x.c
  | [], ws, h, p, nr, m, _, hpl, hst, hp, hk, hn, ht, h0, hc, hm => by
    obtain ⟨w, ws', rfl, hw, hws⟩ := hpl
    have hws : ws' = [] := hws
    subst hws
    simp only [List.flatten_nil, List.append_nil] at hw hm
    obtain ⟨r, p1, b1, b2, b3⟩ := encrypted_of (env := env) hx hp hk (by omega) hw hst (by simp) (by simp) (by simp [hc])
    simp only [] at b3
    obtain ⟨k, p', d1, d2, d3, d4⟩ := denied_of hx (h := { h with stream := h.stream.setProtection (some p1) }) (rest := rest) hst rfl b2 ht h0 hm0 hm
    refine ⟨k, p', ?_, d2, d3, d4⟩
    rw [d1] at b3
    rw [feed, Step.bind_lift_ok b1]
    exact Step.bind_of_err b3
  | b :: more, ws, h, p, nr, m, hmore, hpl, hst, hp, hk, hn, ht, h0, hc, hm => by
    obtain ⟨w, ws', rfl, hw, hws⟩ := hpl
    obtain ⟨ty, body, hty, hbl, rfl⟩ := hmore b (by simp)
    obtain ⟨r, p1, b1, b2, b3⟩ := encrypted_of (env := env) hx hp hk (by omega) hw hst (by simp) (by simp) (by simp [hc])
    simp only [] at b3
    rw [skip_of (h := { h with stream := h.stream.setProtection (some p1) }) hst ht hty hbl] at b3
    have hfl : m ++ (Tls13.handshakeMessage ty.code body :: more).flatten = m ++ Tls13.handshakeMessage ty.code body ++ more.flatten := by simp
    rw [hfl] at hws hm
    obtain ⟨k, p', d1, d2, d3, d4⟩ := skip_feed hx hm0 more ws'
      { h with stream := h.stream.setProtection (some p1), tshash := some (ts x.t (m ++ Tls13.handshakeMessage ty.code body)) } p1 (nr + 1)
      (m ++ Tls13.handshakeMessage ty.code body) (fun b' hb' => hmore b' (by simp [hb'])) hws hst rfl b2 (by simp only [List.length_cons] at hn; omega) rfl h0 hc hm
    exact ⟨k, p', (feed_of b1 b3).trans d1, d2, d3, d4⟩

end ServerProof

/-- A client that does everything as a conforming one, but sends a Certificate message `m` that the server refuses because of `e`. `more`: the messages between
`m` and its Finished (CertificateVerify; nothing after an empty list of certificates). -/
structure RefusedClient (env : ServerEnv) (reads : List Bytes) (r : Exchange) (rng : Rng) (c m : Bytes) (e : TlsError) (more : List Bytes) (rest : Bytes)
    (records : List Bytes) : Prop where
  hello : Tls13.IsRecord 22#8 r.ch r.chRec
  answered : HelloAnsweredBy env reads r.x r.ch r.sh r.ccs rng
  drawn : Drawn env rng (some c)
  flight : ServerFlight env r.x (some c) r.flight
  refused : Refused env c m e
  others : ∀ b ∈ more, ∃ (ty : HandshakeType) (body : Bytes), ty ≠ .finished ∧ body.length < 2 ^ 24 ∧ b = Tls13.handshakeMessage ty.code body
  few : more.length < 2 ^ 20
  records : Tls13.ProtectedFlight (aead r.x.c) (r.x.sess.key .client) (r.x.sess.iv .client) 0
    (m :: more ++ [r.x.sess.finished .client (r.transcript ++ (m :: more).flatten) ++ rest]) records

/-- C104, a refused client certificate: the server sends its flight and then, as the first record under its application traffic key, the alert that says why
the certificate was refused. So RFC 8446's client, which uses this key and sequence number after the server's Finished, can read it. -/
theorem C104_server_refuses (env : ServerEnv) (reads : List Bytes) (r : Exchange) (rng : Rng) (c m : Bytes) (e : TlsError) (more : List Bytes) (rest : Bytes)
    (records incoming : List Bytes) (hu : env.config.prngType = .urandom) (hcert : env.config.cert.raw.length + 200 ≤ 2 ^ 24)
    (hc : RefusedClient env reads r rng c m e more rest records) (he : ¬ NotAnswered e) (hl : r.chRec.length ≤ 4096) (hd : Tls13.Delivers 4096 records incoming) :
    ∃ h swire alert, ServerConnection.accept env reads ⟨r.chRec :: incoming, [], []⟩ = (.err e, h) ∧
      Tls13.Sent (aead r.x.c) (r.x.sess.key .server) (r.x.sess.iv .server) 0 r.flight swire ∧
      Tls13.Protected (aead r.x.c) (r.x.sess.appKey r.transcript .server) (r.x.sess.appIv r.transcript .server) 0 21#8 (alertContent e) alert ∧
      h.stream.stream.written = Tls13.plainRecord 22#8 r.sh ++ r.ccs ++ swire ++ alert := by
  have hl' : r.ch.length ≤ 4096 := by
    obtain ⟨v1, v2, _, he⟩ := hc.hello
    rw [he] at hl
    simp only [List.length_append] at hl
    omega
  obtain ⟨ca, hs, rst, hca, _⟩ := id hc.refused
  obtain ⟨swire, p, k0, hx, b1, b2, b3, b4, b5, b6, b7, b8, b9, b10, rec0, b11⟩ := ServerProof.server_begun hu hcert hc.hello hl' hc.answered hc.drawn hc.flight
  have hk0 : k0.state = .clientCertificate := by rw [b6, hca]; rfl
  obtain ⟨request, cv, hreq, _⟩ := id hc.flight
  have hc32 : c.length = 32 := by
    unfold Requested at hreq
    rw [hca] at hreq
    obtain ⟨c', h1, h2, _⟩ := hreq
    rw [Option.some.inj h2]; exact h1
  obtain ⟨ws, hi, w1, ws1, rfl, hw1, hpl⟩ := plain_of hc.records
  have l1 : m.length < 2 ^ 16 := by obtain ⟨_, _, _, hh, _⟩ := hw1; omega
  obtain ⟨r1, p1, c1, c2, c3⟩ := ServerProof.encrypted_of (env := env) hx b4 b5 (by omega) hw1 hk0 (by decide) (by decide) (by simp [b8])
  simp only [] at c3
  rw [ServerProof.refuse_of (h := { k0 with stream := k0.stream.setProtection (some p1) }) b7 b8 hc32 hc.refused] at c3
  have hlen : (r.transcript ++ m ++ more.flatten).length < 2 ^ 53 := by
    have h1 : more.flatten.length ≤ more.length * (2 ^ 24 + 4) := by
      have := hc.others
      clear hpl hi hc c1 c2 c3
      induction more with
      | nil => simp
      | cons b bs ih =>
        obtain ⟨ty, body, _, hb, rfl⟩ := this b (by simp)
        have h2 := ih fun b' hb' => this b' (by simp [hb'])
        simp only [List.flatten_cons, List.length_append, List.length_cons, Tls13.handshakeMessage, beBytes_length, List.length_nil]
        omega
    have h3 := hc.few
    have h4 : r.transcript.length < 2 ^ 27 := b10
    simp only [List.length_append]
    omega
  obtain ⟨k1, hk1⟩ : ∃ k1 : ServerHandshake, k1 = { k0 with
    stream := k0.stream.setProtection (some p1), tshash := some (ts r.x.t (r.x.hellos ++ r.flight.flatten ++ m)),
    tshashClienthelloServerfinished := some (ts r.x.t (r.x.hellos ++ r.flight.flatten)), state := .finishWithError e } := ⟨_, rfl⟩
  have c3 : ServerHandshake.handleRecord env r1 k0 = (.ok (), k1) := by rw [hk1]; exact c3
  have hfl : r.transcript ++ (m :: more).flatten = r.transcript ++ m ++ more.flatten := by simp
  rw [hfl] at hpl
  obtain ⟨k, p', d1, d2, d3, d4⟩ := ServerProof.skip_feed (env := env) hx (m0 := r.transcript) (c := c) (by have : r.transcript.length < 2 ^ 27 := b10; omega) more ws1 k1 p1 1
    (r.transcript ++ m) hc.others hpl (by rw [hk1]) (by rw [hk1]; rfl) c2 (by have := hc.few; omega) (by rw [hk1]; rfl) (by rw [hk1]; rfl) (by rw [hk1]; exact b8) hlen
  have hfeed : ServerProof.feed env records k0 = (.err e, k) := by
    rw [ServerProof.feed_ccs env hi k0 (by unfold ServerProof.Begun; rw [hk0]; decide), ServerProof.feed_of c1 c3]
    exact d1
  have hall : ∀ w ∈ records, NoAlert w := by
    intro w hw
    obtain ⟨t, c, ht, hr⟩ := flight_whole hx hc.records (by have := hc.few; simp; omega) w hw
    exact ⟨t, c, by rcases ht with rfl | rfl <;> decide, hr⟩
  obtain ⟨h, a, g1, g2, g3⟩ := ServerProof.accept_alert env reads (Q := fun a => Tls13.Protected (aead r.x.c) (r.x.sess.appKey r.transcript .server) (r.x.sess.appIv r.transcript .server) 0 21#8
      (alertContent e) a) ⟨22#8, r.ch, by decide, hc.hello⟩ hl hall hd b2 hfeed (by rw [d2, hk1]; rfl) he (by
    intro s hs hf
    rw [d2] at hs
    obtain ⟨a, s', f1, f2, f3⟩ := AlertProof.alert_sealed (cs := r.x.cs) (e := e) (seq := 0) hs (by rw [d4]; exact hx.cipher) (by rw [d3]; exact EarlyProof.appKey_sizes _ _ _) (by rw [d3]; rfl) (by omega) hf
    rw [d3, d4] at f3
    exact ⟨a, s', f1, f2, f3⟩)
  exact ⟨h, swire, a, g1, b1, g3, by rw [g2, b3]⟩

/-- C104, a wrong Finished (server without a client CA): the server sends its flight and then an alert under its handshake traffic key, with the sequence number
that follows its Finished. RFC 8446's client uses the application traffic key from the server's Finished on. -/
theorem C104_server_wrong_finished (env : ServerEnv) (reads : List Bytes) (r : Exchange) (rng : Rng) (vd rest : Bytes) (records incoming : List Bytes)
    (hu : env.config.prngType = .urandom) (hcert : env.config.cert.raw.length + 200 ≤ 2 ^ 24) (hca : env.config.clientCertCa = none)
    (hello : Tls13.IsRecord 22#8 r.ch r.chRec) (answered : HelloAnsweredBy env reads r.x r.ch r.sh r.ccs rng) (flight : ServerFlight env r.x none r.flight)
    (hvd : vd.length < 2 ^ 16) (hne : Tls13.handshakeMessage 20#8 vd ≠ r.x.sess.finished .client r.transcript)
    (hr : Tls13.ProtectedFlight (aead r.x.c) (r.x.sess.key .client) (r.x.sess.iv .client) 0 [Tls13.handshakeMessage 20#8 vd ++ rest] records)
    (hl : r.chRec.length ≤ 4096) (hd : Tls13.Delivers 4096 records incoming) :
    ∃ h swire alert, ServerConnection.accept env reads ⟨r.chRec :: incoming, [], []⟩ = (.err .decryptError, h) ∧
      Tls13.Sent (aead r.x.c) (r.x.sess.key .server) (r.x.sess.iv .server) 0 r.flight swire ∧
      Tls13.Protected (aead r.x.c) (r.x.sess.key .server) (r.x.sess.iv .server) r.flight.length 21#8 (alertContent .decryptError) alert ∧
      h.stream.stream.written = Tls13.plainRecord 22#8 r.sh ++ r.ccs ++ swire ++ alert := by
  have hl' : r.ch.length ≤ 4096 := by
    obtain ⟨v1, v2, _, he⟩ := hello
    rw [he] at hl
    simp only [List.length_append] at hl
    omega
  obtain ⟨swire, p, k0, hx, b1, b2, b3, b4, b5, b6, b7, b8, b9, b10, rec0, b11⟩ := ServerProof.server_begun hu hcert hello hl' answered
    (by unfold Drawn; rw [hca]) flight
  have hk0 : k0.state = .clientFinished := by rw [b6, hca]; rfl
  obtain ⟨ws, hi, w1, ws1, rfl, hw1, hpl⟩ := plain_of hr
  have hpl : ws1 = [] := hpl
  subst hpl
  obtain ⟨r1, p1, c1, c2, c3⟩ := ServerProof.encrypted_of (env := env) hx b4 b5 (by omega) hw1 hk0 (by decide) (by decide) (by simp [hca])
  simp only [] at c3
  rw [ServerProof.wrong_of (h := { k0 with stream := k0.stream.setProtection (some p1) }) rfl c2 b7 (by omega) (by omega) (by
    intro h
    apply hne
    rw [h]
    rfl)] at c3
  have hfeed : ServerProof.feed env records k0 = (.err .decryptError, { k0 with stream := k0.stream.setProtection (some p1) }) := by
    rw [ServerProof.feed_ccs env hi k0 (by unfold ServerProof.Begun; rw [hk0]; decide), ServerProof.feed, Step.bind_lift_ok c1]
    exact Step.bind_of_err c3
  have hall : ∀ w ∈ records, NoAlert w := by
    intro w hw
    obtain ⟨t, c, ht, hr⟩ := flight_whole hx hr (by simp) w hw
    exact ⟨t, c, by rcases ht with rfl | rfl <;> decide, hr⟩
  have hfn : r.flight.length < 2 ^ 63 := by
    obtain ⟨request, cv, h1, _, h2⟩ := flight
    unfold Requested at h1
    rw [hca] at h1
    rw [h2, h1.2]
    simp
  obtain ⟨h, a, g1, g2, g3⟩ := ServerProof.accept_alert env reads (Q := fun a => Tls13.Protected (aead r.x.c) (r.x.sess.key .server) (r.x.sess.iv .server) r.flight.length 21#8
      (alertContent .decryptError) a) ⟨22#8, r.ch, by decide, hello⟩ hl hall hd b2 hfeed rfl (by simp [NotAnswered]) (by
    intro s hs hf
    obtain ⟨a, s', f1, f2, f3⟩ := AlertProof.alert_sealed (cs := r.x.cs) (e := .decryptError) (seq := r.flight.length) hs (by rw [c2.cipher]; exact hx.cipher)
      (by rw [c2.w]; exact hsKey_sizes _ _ _) (by rw [c2.w]; rfl) hfn hf
    rw [c2.w, c2.cipher] at f3
    exact ⟨a, s', f1, f2, f3⟩)
  exact ⟨h, swire, a, g1, b1, g3, by rw [g2, b3]⟩

namespace ServerProof
open ServerHandshake

/-- Nothing is sent yet, or at least 2048 bytes. -/
def HeldBack (s : TlsStream) : Prop := s.stream.failures = [] ∧ (s.stream.written = [] ∨ 2048 ≤ s.stream.written.length)
def Held (h : ServerHandshake) : Prop := HeldBack h.stream

namespace Held

theorem protect (s : TlsStream) (r : Record) : (s.protectRecord r).2.stream = s.stream := by
  unfold TlsStream.protectRecord
  cases s.protection <;> rfl

theorem writes (s : TlsStream) (t : RecordType) (d : Bytes) (h : HeldBack s) : HeldBack (s.writeRecord t d).2 := by
  have hs := protect s (Record.new t d)
  unfold TlsStream.writeRecord
  generalize s.protectRecord (Record.new t d) = z at hs ⊢
  obtain ⟨r, s1⟩ := z
  have hs : s1.stream = s.stream := hs
  have h1 : HeldBack s1 := by
    unfold HeldBack
    rw [hs]
    exact h
  cases r with
  | err e => exact h1
  | panic => exact h1
  | ok b =>
    simp only []
    split_ifs with hl
    · unfold TlsStream.flush Socket.writeAll
      simp only [] at hl ⊢
      rw [if_neg (by intro e; rw [e] at hl; simp at hl), h1.1]
      refine ⟨rfl, .inr ?_⟩
      simp only [List.length_append] at hl ⊢
      omega
    · exact h1

theorem write (t : RecordType) (d : Bytes) : Step.Pres Held (writeRecord t d) := fun h hh => writes h.stream t d hh

theorem mod {g : ServerHandshake → ServerHandshake} (h : ∀ h, (g h).stream.stream = h.stream.stream) : Step.Pres Held (Step.modify g : M Unit) :=
  fun s hs => by
    show HeldBack (g s).stream
    unfold HeldBack
    rw [h]
    exact hs

theorem request (env : ServerEnv) (t : TsHash) : Step.Pres Held (sendCertificateRequest env t) := by
  unfold sendCertificateRequest
  pres
  all_goals first
    | exact write _ _
    | exact mod fun _ => rfl

theorem flight (env : ServerEnv) (t : TsHash) : Step.Pres Held (sendFlight env t) := by
  unfold sendFlight
  pres
  all_goals first
    | exact write _ _
    | exact request _ _
    | exact fun _ h => h

theorem hello (env : ServerEnv) (r : Record) : Step.Pres Held (handleClientHello env r) := by
  unfold handleClientHello sendChangeCipherSpec logHandshakeSecrets ServerHandshake.setProtection
  pres
  all_goals first
    | exact write _ _
    | exact flight _ _
    | exact fun _ h => h

end Held

end ServerProof

/-- C104, data behind the ClientHello in the same read: when the server's first flight is shorter than 2048 bytes and a byte that is not a record follows the
client's hello, all that is sent is an alert under the handshake traffic key, without the ServerHello the client needs to compute this key. -/
theorem C104_server_unsent (env : ServerEnv) (reads : List Bytes) (r : Exchange) (rng : Rng) (context : Option Bytes) (b : Byte)
    (hu : env.config.prngType = .urandom) (hcert : env.config.cert.raw.length + 200 ≤ 2 ^ 24)
    (hello : Tls13.IsRecord 22#8 r.ch r.chRec) (answered : HelloAnsweredBy env reads r.x r.ch r.sh r.ccs rng) (drawn : Drawn env rng context)
    (flight : ServerFlight env r.x context r.flight) (hl : r.chRec.length < 4096)
    (hsmall : ∀ swire, Tls13.Sent (aead r.x.c) (r.x.sess.key .server) (r.x.sess.iv .server) 0 r.flight swire → (Tls13.plainRecord 22#8 r.sh ++ r.ccs ++ swire).length < 2048) :
    OwnError env reads [r.chRec ++ [b]] .decodeError ∧ ∃ h, ServerConnection.accept env reads ⟨[r.chRec ++ [b]], [], []⟩ = (.err .decodeError, h) ∧
      Tls13.Protected (aead r.x.c) (r.x.sess.key .server) (r.x.sess.iv .server) r.flight.length 21#8 (alertContent .decodeError) h.stream.stream.written := by
  have hl' : r.ch.length ≤ 4096 := by
    obtain ⟨v1, v2, _, he⟩ := hello
    rw [he] at hl
    simp only [List.length_append] at hl
    omega
  obtain ⟨swire, p, k0, hx, b1, b2, b3, b4, b5, b6, b7, b8, b9, b10, rec0, b11⟩ := ServerProof.server_begun hu hcert hello hl' answered drawn flight
  have hheld : k0.stream.stream.failures = [] ∧ k0.stream.stream.written = [] := by
    have h1 : ServerProof.Held (ServerHandshake.handleClientHello env rec0 (ServerProof.base env reads)).2 :=
      ServerProof.Held.hello env rec0 _ ⟨rfl, .inl rfl⟩
    rw [b11] at h1
    obtain ⟨h1, h2 | h2⟩ := h1
    · exact ⟨h1, h2⟩
    · have h3 := hsmall swire b1
      rw [← b3] at h3
      unfold out at h3
      rw [List.length_append] at h3
      have h2 : 2048 ≤ k0.stream.stream.written.length := h2
      omega
  obtain ⟨hw5, rc, hrc⟩ := whole_fromRaw (w := r.chRec) ⟨22#8, r.ch, by decide, hello⟩
  have hh : ServerHandshake.handleRecord env rc (ServerProof.base env reads) = (.ok (), k0) := by
    have hr0 := hrc []
    rw [List.append_nil] at hr0
    rw [ServerProof.feed, Step.bind_lift_ok hr0] at b2
    simp only [] at b2
    rw [Step.bind_eq] at b2
    rcases h : ServerHandshake.handleRecord env rc (ServerProof.base env reads) with ⟨_ | _ | _, k⟩
    · simp only [h] at b2
      have : k = k0 := (Prod.mk.inj b2).2
      rw [this]
    · simp only [h] at b2; exact absurd (Prod.mk.inj b2).1 (by simp)
    · simp only [h] at b2; exact absurd (Prod.mk.inj b2).1 (by simp)
  have hrec : ServerHandshake.recordsLoop env (r.chRec ++ [b]).length (r.chRec ++ [b]) (ServerProof.base env reads) = (.err .decodeError, k0) := by
    rw [List.length_append, List.length_singleton]
    unfold ServerHandshake.recordsLoop
    rw [if_neg (by simp), Step.bind_lift_ok (hrc _)]
    simp only []
    rw [Step.bind_of_ok hh, List.drop_left]
    obtain ⟨n, hn⟩ : ∃ n, r.chRec.length = n + 1 := ⟨r.chRec.length - 1, by omega⟩
    rw [hn]
    unfold ServerHandshake.recordsLoop
    rw [if_neg (by simp)]
    rfl
  have hdo : ServerHandshake.doHandshake env (ServerHandshake.new env (TlsStream.new ⟨[r.chRec ++ [b]], [], []⟩) reads) = (.err .decodeError, k0) := by
    unfold ServerHandshake.doHandshake ServerHandshake.readLoop
    rw [Step.bind_get, if_neg (by simp [ServerHandshake.new])]
    have hrd : (ServerHandshake.onStream fun s => s.tcpRead 4096) (ServerHandshake.new env (TlsStream.new ⟨[r.chRec ++ [b]], [], []⟩) reads) =
        (.ok (r.chRec ++ [b]), ServerProof.base env reads) := by
      unfold ServerHandshake.onStream TlsStream.tcpRead
      have h1 : (r.chRec ++ [b]).length ≤ 4096 := by simp; omega
      simp only [ServerHandshake.new, TlsStream.new]
      rw [List.take_of_length_le h1, List.drop_of_length_le h1, if_neg (by simp), if_pos rfl]
      rfl
    refine (Step.bind_of_ok hrd).trans ?_
    exact Step.bind_of_err hrec
  have hfn : r.flight.length < 2 ^ 63 := by
    obtain ⟨request, cv, h1, _, h2⟩ := flight
    have h3 : request.length ≤ 1 := by
      unfold Requested at h1
      split at h1
      · rw [h1.2]; simp
      · obtain ⟨c, _, _, h1⟩ := h1
        rw [h1]; simp
    rw [h2]
    simp
    omega
  obtain ⟨a, s', f1, f2, f3⟩ := AlertProof.alert_sealed (cs := r.x.cs) (e := .decodeError) (seq := r.flight.length) b4 (by rw [b5.cipher]; exact hx.cipher)
    (by rw [b5.w]; exact hsKey_sizes _ _ _) (by rw [b5.w]; rfl) hfn hheld.1
  rw [b5.w, b5.cipher] at f3
  rw [hheld.2, List.nil_append] at f2
  refine ⟨⟨(by rintro (⟨_, h⟩ | h | h) <;> cases h), _, hdo⟩, { k0 with stream := s' }, ?_, by rw [show ({ k0 with stream := s' } : ServerHandshake).stream.stream.written = a from f2]; exact f3⟩
  unfold ServerConnection.accept ServerHandshake.doHandshakeWithError
  rw [hdo]
  simp only []
  rw [if_pos (by decide)]
  have hst : (ServerHandshake.onStream fun s => s.writeAlert .decodeError) k0 = (.ok (), { k0 with stream := s' }) := by
    unfold ServerHandshake.onStream
    simp only [f1]
  rw [Step.bind_of_ok hst]
  rfl

end ATLS
