import Verif.Proof.ClientFwd
import Verif.Proof.ClientPres
import Verif.Props.Negotiation
/-
The client's state machine: what has been written, and which keys are installed, when the handshake fails.
-/
namespace ATLS.Model.Step
variable {σ ε α β : Type}

theorem bind_err {x : Step σ ε α} {f : α → Step σ ε β} {s s'' : σ} {e : ε} (h : (x >>= f) s = (.err e, s'')) :
    x s = (.err e, s'') ∨ ∃ a s', x s = (.ok a, s') ∧ f a s' = (.err e, s'') := by
  rw [bind_eq] at h
  rcases hx : x s with ⟨r, s'⟩
  rw [hx] at h
  cases r with
  | ok a => exact .inr ⟨a, s', rfl, h⟩
  | err e' =>
    have h' : ((Res.err e', s') : Res ε β × σ) = (.err e, s'') := h
    obtain ⟨h1, rfl⟩ := Prod.mk.inj h'
    cases h1
    exact .inl rfl
  | panic => exact absurd (Prod.mk.inj h).1 (by simp)

theorem lift_err {r : Res ε α} {s s' : σ} {e : ε} (h : (lift r : Step σ ε α) s = (.err e, s')) : r = .err e ∧ s' = s :=
  ⟨(Prod.mk.inj h).1, (Prod.mk.inj h).2.symm⟩

theorem lift_bind_err {r : Res ε α} {f : α → Step σ ε β} {s s' : σ} {e : ε} (h : ((lift r : Step σ ε α) >>= f) s = (.err e, s')) :
    (r = .err e ∧ s' = s) ∨ ∃ a, r = .ok a ∧ f a s = (.err e, s') := by
  rcases bind_err h with h | ⟨a, s1, h1, h2⟩
  · exact .inl (lift_err h)
  · obtain ⟨h3, h4⟩ := lift_ok.1 h1
    subst h4
    exact .inr ⟨a, h3, h2⟩

end ATLS.Model.Step

namespace ATLS
open ATLS.Model ATLS.Spec FlowProof

namespace ClientProof
open ClientHandshake RecProof NegProof

theorem onStream_err {α : Type} {f : TlsStream → Res TlsError α × TlsStream} {h h' : ClientHandshake} {e : TlsError} (hw : onStream f h = (.err e, h')) :
    ∃ s, f h.stream = (.err e, s) ∧ h' = { h with stream := s } := by
  unfold onStream at hw
  rcases hf : f h.stream with ⟨r, s⟩
  rw [hf] at hw
  simp only [] at hw
  have h1 := (Prod.mk.inj hw).1
  subst h1
  exact ⟨s, rfl, (Prod.mk.inj hw).2.symm⟩

theorem flush_keeps {s : TlsStream} (h : Calm s) : Calm s.flush.2 := by
  obtain ⟨s', h1, h2⟩ := flush_calm h
  rw [h1]; exact h2

/-- Without write failures there never are any. -/
theorem calm_keeps (env : ClientEnv) : Keeps env fun h => Calm h.stream where
  hello data h hs := by
    change Calm (h.stream.tcpWrite _).2
    unfold TlsStream.tcpWrite Socket.write
    have hs' : h.stream.stream.failures = [] := hs
    rw [hs']
    rfl
  write t data _ h hs := by
    change Calm (h.stream.writeRecord _ _).2
    unfold TlsStream.writeRecord TlsStream.protectRecord
    cases h.stream.protection with
    | none =>
      simp only []
      split
      · exact flush_keeps hs
      · exact hs
    | some p =>
      simp only []
      rcases p.encrypt (Record.new t data) with ⟨_ | _ | _, p'⟩
      · simp only []
        split
        · exact flush_keeps hs
        · exact hs
      · exact hs
      · exact hs
  read h hs := by
    change Calm (h.stream.tcpRead _).2
    unfold TlsStream.tcpRead
    split
    · exact hs
    · simp only []
      split <;> exact hs
  flush h hs := flush_keeps hs
  protect h p hs := hs
  log1 p := by
    unfold logHandshakeSecrets
    pres
    exact Step.Pres.modify fun _ hh => hh
  log2 p := by
    intro h hh
    unfold logApplicationSecrets
    split
    · exact hh
    · exact hh
  frame h h' h1 _ _ hs := by
    change Calm h'.stream
    rw [h1]; exact hs

/-! ### Steps that do not touch the stream -/

theorem same_mod {s : TlsStream} {g : ClientHandshake → ClientHandshake} (h : ∀ h, (g h).stream = h.stream) :
    Step.Pres (fun h => h.stream = s) (Step.modify g : M Unit) := fun k hk => (h k).trans hk

theorem same_update (s : TlsStream) (b : Bytes) : Step.Pres (fun h => h.stream = s) (updateTshash b) :=
  Step.Pres.bind (fun _ h => h) fun _ => same_mod fun _ => rfl

theorem same_state (s : TlsStream) (t : ClientHsState) : Step.Pres (fun h => h.stream = s) (setState t) := same_mod fun _ => rfl

theorem same_extensions (m : Handshake) (h : ClientHandshake) : (handleEncryptedExtension m h).2.stream = h.stream := by
  have : Step.Pres (fun k => k.stream = h.stream) (handleEncryptedExtension m) := by
    unfold handleEncryptedExtension
    pres
    all_goals first
      | exact same_update _ _
      | exact same_state _ _
  exact this h rfl

theorem same_certificate (env : ClientEnv) (m : Handshake) (h : ClientHandshake) : (handleServerCertificate env m h).2.stream = h.stream := by
  have : Step.Pres (fun k => k.stream = h.stream) (handleServerCertificate env m) := by
    unfold handleServerCertificate
    pres
    all_goals first
      | exact same_update _ _
      | exact same_state _ _
      | exact same_mod fun _ => rfl
  exact this h rfl

theorem same_certificateVerify (m : Handshake) (h : ClientHandshake) : (handleServerCertificateVerify m h).2.stream = h.stream := by
  have : Step.Pres (fun k => k.stream = h.stream) (handleServerCertificateVerify m) := by
    unfold handleServerCertificateVerify
    pres
    all_goals first
      | exact same_update _ _
      | exact same_state _ _
      | exact fun _ h => h
  exact this h rfl

theorem same_request (m : Handshake) (h : ClientHandshake) :
    ((do
      .modify fun h => { h with certificateRequest := some m.fraqment }
      updateTshash m.raw
      setState .serverCertificate : M Unit) h).2.stream = h.stream := by
  have : Step.Pres (fun k => k.stream = h.stream) (do
      .modify fun h => { h with certificateRequest := some m.fraqment }
      updateTshash m.raw
      setState .serverCertificate : M Unit) := by
    pres
    all_goals first
      | exact same_update _ _
      | exact same_state _ _
      | exact same_mod fun _ => rfl
  exact this h rfl

/-! ### Decryption leaves the keys for writing alone -/

theorem readNonce_write {p q : RecordPayloadProtection} {a b : Bytes} (h : p.readNonce = .ok (a, b, q)) : q.cipher = p.cipher ∧ wKey q = wKey p := by
  unfold RecordPayloadProtection.readNonce at h
  split_ifs at h with hc
  · obtain ⟨⟨n, k⟩, _, h⟩ := Res.bind_eq_ok.1 h
    simp only [Res.ok.injEq, Prod.mk.injEq] at h
    obtain ⟨_, _, rfl⟩ := h
    refine ⟨?_, ?_⟩
    · unfold RecordPayloadProtection.setKeys; cases p.applicationKeys <;> rfl
    · simp [wKey, hc]
  · obtain ⟨⟨n, k⟩, _, h⟩ := Res.bind_eq_ok.1 h
    simp only [Res.ok.injEq, Prod.mk.injEq] at h
    obtain ⟨_, _, rfl⟩ := h
    refine ⟨?_, ?_⟩
    · unfold RecordPayloadProtection.setKeys; cases p.applicationKeys <;> rfl
    · simp [wKey, hc]

theorem decrypt_write (p : RecordPayloadProtection) (r : Record) : (p.decrypt r).2.cipher = p.cipher ∧ wKey (p.decrypt r).2 = wKey p := by
  unfold RecordPayloadProtection.decrypt
  split
  · exact ⟨rfl, rfl⟩
  · split
    · exact ⟨rfl, rfl⟩
    · exact ⟨rfl, rfl⟩
    · rename_i h
      simp only []
      split <;> exact readNonce_write h

/-! ### Nothing fails after the Finished of the server -/

theorem idx_not_err {ε : Type} (b : Bytes) (i : Nat) (e : ε) : (idx b i : Res ε Byte) ≠ .err e := by
  unfold idx
  split <;> simp

theorem sliceFrom_not_err {ε : Type} (b : Bytes) (i : Nat) (e : ε) : (sliceFrom b i : Res ε Bytes) ≠ .err e := by
  unfold sliceFrom
  split_ifs <;> simp

theorem unwrap_not_err {ε α : Type} (o : Option α) (e : ε) : (Res.unwrap o : Res ε α) ≠ .err e := by
  cases o <;> simp [Res.unwrap]

theorem to32_not_err {ε : Type} (n : Int) (o : ByteOrder) (e : ε) : (ibigTo32bytes n o : Res ε Bytes) ≠ .err e := by
  unfold ibigTo32bytes
  exact bind_not_err (by unfold ibigToVec; split_ifs <;> simp) (by simp)

theorem multiply_not_err (p : Point) (n : Int) (curve : Curve) (e : Unit) : Ec.multiply p n curve ≠ .err e := by
  unfold Ec.multiply
  cases curve.equation with
  | shortWeierstrass => simp
  | montgomery =>
    simp only []
    cases h1 : (ibigTo32bytes n .big : Res Unit Bytes) with
    | err e' => exact absurd h1 (to32_not_err _ _ _)
    | panic => simp
    | ok a =>
      simp only [Res.ok_bind]
      cases h2 : (ibigTo32bytes p.x .big : Res Unit Bytes) with
      | err e' => exact absurd h2 (to32_not_err _ _ _)
      | panic => simp
      | ok b =>
        simp only [Res.ok_bind]
        rw [C32_x25519 _ _ (to32_length h1) (to32_length h2), Res.ok_bind]
        generalize toIbigBe (Spec.X25519.x25519 a b) = v
        simp

theorem sign_not_err (key : PrivateKey) (msg : Int) (e : Unit) : ∀ nonces, Ecdsa.signLoop key msg nonces ≠ .err e
  | [] => by simp [Ecdsa.signLoop]
  | k :: ks => by
    unfold Ecdsa.signLoop
    refine bind_not_err ?_ ?_
    · unfold Ecdsa.signRound
      refine bind_not_err (multiply_not_err _ _ _ _) fun p => ?_
      simp only []
      split_ifs <;> simp
    · intro o
      cases o with
      | none => exact sign_not_err key msg e ks
      | some s => simp

theorem der_not_err (b : Bytes) (e : TlsError) : Signature.derInteger b ≠ .err e := by
  unfold Signature.derInteger
  refine bind_not_err (idx_not_err _ _ _) fun t => ?_
  split_ifs <;> simp

theorem cvBody_not_err (nonces : List Int) (key : PrivateKey) (t : TsHash) (label : Bytes) (e : TlsError) :
    Certificate.getCertificateVerifyForHandshake nonces key t label ≠ .err e := by
  unfold Certificate.getCertificateVerifyForHandshake
  simp only []
  refine bind_not_err ?_ fun s => bind_not_err (unwrap_not_err _ _) fun sig => bind_not_err ?_ (by simp)
  · unfold Ecdsa.sign
    cases h : Ecdsa.signLoop key (toIbigBe (sha256 (Certificate.verifyContent t label))) nonces with
    | err e => exact absurd h (sign_not_err _ _ _ _)
    | ok a => simp [Res.mapErr]
    | panic => simp [Res.mapErr]
  · unfold Signature.toDer
    exact bind_not_err (to32_not_err _ _ _) fun _ => bind_not_err (to32_not_err _ _ _) fun _ => bind_not_err (der_not_err _ _) fun _ =>
      bind_not_err (der_not_err _ _) (by simp)

/-- The configuration of the client's certificate that the builder makes: a certificate comes with a key. -/
def Keyful (env : ClientEnv) : Prop := ∀ c, env.config.clientCert = some c → ∃ key, env.config.clientKey = some key

theorem sendVerify_not_err {env : ClientEnv} {x : Params} (hx : x.Ok) {h h' : ClientHandshake} {p : RecordPayloadProtection} {nw nr : Nat} {m : Bytes} {e : TlsError}
    (hkc : Keyful env) (hw : sendCertificateVerify env h = (.err e, h')) (ht : h.tshash = some (ts x.t m)) (hm : m.length < 2 ^ 53) (hc : Calm h.stream)
    (hp : h.stream.protection = some p) (hk : HsProt x true p nw nr) (hn : nw < 2 ^ 62) : False := by
  unfold sendCertificateVerify at hw
  cases hcc : env.config.clientCert with
  | none =>
    rw [hcc] at hw
    exact absurd (Prod.mk.inj hw).1 (by simp)
  | some c =>
    obtain ⟨key, hkey⟩ := hkc c hcc
    rw [hcc, hkey] at hw
    simp only [] at hw
    rw [Step.bind_of_ok (tshash_of ht)] at hw
    rcases Step.lift_bind_err hw with ⟨hw, _⟩ | ⟨body, hb, hw⟩
    · exact cvBody_not_err _ _ _ _ _ hw
    obtain ⟨sig, der, q1, q2, q3, q4⟩ := ServerProof.cvBody_inv .client hm hb
    rw [Step.bind_of_ok (update_of ht _)] at hw
    obtain ⟨w, p', s, a1, _⟩ := write_hs_of hx (h := { h with tshash := some ((ts x.t m).update (Handshake.toBytes .certificateVerify body)) })
      (m := Handshake.toBytes .certificateVerify body) hc hp hk (by omega) (by
        rw [toBytes_eq, q3]
        simp only [Tls13.handshakeMessage, Tls13.certificateVerifyMessage, List.length_append, beBytes_length, List.length_cons, List.length_nil]
        omega)
    rw [a1] at hw
    exact absurd (Prod.mk.inj hw).1 (by simp)

/-- Answering a certificate request does not fail. -/
theorem answer_not_err {env : ClientEnv} {x : Params} (hx : x.Ok) {h h' : ClientHandshake} {p : RecordPayloadProtection} {nr : Nat} {m : Bytes} {e : TlsError}
    (hkc : Keyful env) (hcl : ∀ c, env.config.clientCert = some c → c.raw.length + 400 ≤ 2 ^ 24)
    (hw : answerRequest env h = (.err e, h')) (ht : h.tshash = some (ts x.t m)) (hm : m.length < 2 ^ 52) (hc : Calm h.stream)
    (hp : h.stream.protection = some p) (hk : HsProt x true p 0 nr) : False := by
  unfold answerRequest at hw
  rw [Step.bind_get] at hw
  cases hreq : h.certificateRequest with
  | none =>
    rw [hreq] at hw
    exact absurd (Prod.mk.inj hw).1 (by simp)
  | some request =>
    rw [hreq, if_pos (by rfl)] at hw
    unfold handleCertificateRequest at hw
    rw [Step.bind_get] at hw
    rcases Step.lift_bind_err hw with ⟨hw, _⟩ | ⟨r, e1, hw⟩
    · exact unwrap_not_err _ _ hw
    rcases Step.lift_bind_err hw with ⟨hw, _⟩ | ⟨n, e2, hw⟩
    · exact idx_not_err _ _ _ hw
    rcases Step.lift_bind_err hw with ⟨hw, _⟩ | ⟨context, e3, hw⟩
    · split_ifs at hw
      · exact slice_not_err _ _ _ _ hw
    have hctxl : context.length < 2 ^ 8 := by
      have hb := n.isLt
      split_ifs at e3 with hz
      · unfold slice at e3
        split_ifs at e3
        rw [← Res.ok.inj e3, List.length_take]
        omega
      · rw [← Res.ok.inj e3]; simp
    simp only [] at hw
    rcases Step.lift_bind_err hw with ⟨hw, _⟩ | ⟨l, e4, hw⟩
    · exact sliceFrom_not_err _ _ _ hw
    rcases Step.lift_bind_err hw with ⟨hw, _⟩ | ⟨exts, e5, hw⟩
    · exact slice_not_err _ _ _ _ hw
    have hw : ((do
        writeRecord .handshake (Handshake.toBytes .certificate ([n] ++ context ++ (match env.config.clientCert with
          | some c => c.getCertificateForHandshake []
          | none => [0x00#8, 0x00#8, 0x00#8, 0x02#8, 0x00#8, 0x00#8])))
        updateTshash (Handshake.toBytes .certificate ([n] ++ context ++ (match env.config.clientCert with
          | some c => c.getCertificateForHandshake []
          | none => [0x00#8, 0x00#8, 0x00#8, 0x02#8, 0x00#8, 0x00#8])))
        sendCertificateVerify env
        setState .serverCertificate) : M Unit) h = (.err e, h') := by
      revert hw
      cases CertificateRequestExtensions.fromRequest exts with
      | panic => intro hw; exact absurd (Prod.mk.inj hw).1 (by simp)
      | ok _ => exact id
      | err _ => exact id
    obtain ⟨cm, hcm⟩ : ∃ cm, cm = Handshake.toBytes .certificate ([n] ++ context ++ (match env.config.clientCert with
          | some c => c.getCertificateForHandshake []
          | none => [0x00#8, 0x00#8, 0x00#8, 0x02#8, 0x00#8, 0x00#8])) := ⟨_, rfl⟩
    rw [← hcm] at hw
    have hcml : cm.length + 64 ≤ 2 ^ 24 := by
      rw [hcm, toBytes_eq]
      have hlr : (match env.config.clientCert with
          | some c => c.getCertificateForHandshake []
          | none => [0x00#8, 0x00#8, 0x00#8, 0x02#8, 0x00#8, 0x00#8]).length + 388 ≤ 2 ^ 24 := by
        cases hc : env.config.clientCert with
        | none => simp
        | some c =>
          have := hcl c hc
          simp only [Certificate.getCertificateForHandshake, List.length_append, List.length_cons, List.length_nil]
          omega
      simp only [Tls13.handshakeMessage, List.length_append, beBytes_length, List.length_cons, List.length_nil]
      omega
    obtain ⟨w1, p1, s1, a1, a2, a3, a4, a5, a6⟩ := write_hs_of hx hc hp hk (by omega) hcml
    rw [Step.bind_of_ok a1] at hw
    have ht1 : ({ h with stream := s1 } : ClientHandshake).tshash = some (ts x.t m) := ht
    rw [Step.bind_of_ok (update_of ht1 _)] at hw
    rcases Step.bind_err hw with hw | ⟨u, h3, _, hw⟩
    · exact sendVerify_not_err hx (x := x) (m := m ++ cm) hkc hw (by rw [ts_update]) (by rw [List.length_append]; omega) a2 a5 a6 (by omega)
    · exact absurd (Prod.mk.inj hw).1 (by simp)

/-- The Finished of the server is refused before anything is written, or not at all. -/
theorem finish_refused {env : ClientEnv} {x : Params} (hx : x.Ok) {seen : Bytes} {h h' : ClientHandshake} {p : RecordPayloadProtection} {nr : Nat} {hs : Handshake}
    {e : TlsError} (hkc : Keyful env) (hcl : ∀ c, env.config.clientCert = some c → c.raw.length + 400 ≤ 2 ^ 24)
    (hw : handleServerFinish env hs h = (.err e, h')) (hst : h.state = .finished) (hp : h.stream.protection = some p) (hk : HsProt x true p 0 nr)
    (ht : h.tshash = some (ts x.t (x.hellos ++ seen))) (hm : (x.hellos ++ seen).length < 2 ^ 51) (hc : Calm h.stream)
    (hraw : hs.raw = Tls13.handshakeMessage hs.handshakeType.code hs.fraqment) : h' = h := by
  unfold handleServerFinish at hw
  rw [Step.bind_get] at hw
  split_ifs at hw with hty
  · rw [hst] at hw; exact (Prod.mk.inj hw).2.symm
  have hty : hs.handshakeType = .finished := by simpa using hty
  rw [Step.bind_of_ok (protection_of hp), Step.bind_of_ok (tshash_of ht)] at hw
  have hks : p.keySchedule.serverHandshakeTrafficSecret = ⟨x.t, x.sess.secret .server⟩ := by rw [hk.ks]; rfl
  rw [Step.bind_lift_ok (by rw [hks]; exact verify_data x .server _ (by omega))] at hw
  rw [hst] at hw
  simp only [] at hw
  split_ifs at hw with hvd
  · exact (Prod.mk.inj hw).2.symm
  exfalso
  have hvd : hs.fraqment = Tls13.verifyData (rfcHash x.t) (x.sess.secret .server) ((rfcHash x.t).H (x.hellos ++ seen)) := by simpa using hvd
  have hfin : hs.raw = x.sess.finished .server (x.hellos ++ seen) := by rw [hraw, hty, hvd]; rfl
  have hfl := finished_le x .server (x.hellos ++ seen) (by omega)
  obtain ⟨T, hT⟩ : ∃ T, T = x.hellos ++ seen ++ x.sess.finished .server (x.hellos ++ seen) := ⟨_, rfl⟩
  have hTl : T.length < 2 ^ 52 := by rw [hT, List.length_append]; omega
  rw [Step.bind_of_ok (update_of ht _), ts_update, hfin, ← hT] at hw
  rw [Step.bind_of_ok (tshash_of (t := ts x.t T) rfl)] at hw
  rcases Step.bind_err hw with hw | ⟨u, h5, e9, hw⟩
  · exact answer_not_err hx (x := x) (m := T) hkc hcl hw rfl hTl hc hp hk
  have hc5 : Calm h5.stream := by
    have := (calm_keeps env).answer _ (show Calm ({ h with tshash := some (ts x.t T) } : ClientHandshake).stream from hc)
    rw [e9] at this
    exact this
  obtain ⟨auth, w1, p1, s1, st, a1, a2, a3, rfl, a4, a5, a6, a7, a8⟩ := answer_ok (x := x) (m := T) e9 rfl hTl (fun c h => by have := hcl c h; omega) hp hk
  rw [Step.bind_of_ok (protection_of (p := p1) a6), Step.bind_of_ok (tshash_of (t := ts x.t (T ++ auth.flatten)) rfl)] at hw
  have hks : p1.keySchedule.clientHandshakeTrafficSecret = ⟨x.t, x.sess.secret .client⟩ := by rw [a7.ks]; rfl
  have hfm := finished_message x .client (T ++ auth.flatten) (by rw [List.length_append]; omega)
  have hfl2 := finished_le x .client (T ++ auth.flatten) (by rw [List.length_append]; omega)
  rw [Step.bind_lift_ok (by rw [hks]; exact hfm)] at hw
  obtain ⟨w2, p2, s2, b1, b2, b3, b4, b5, b6⟩ := write_hs_of hx hc5 a6 a7 (by omega) (m := x.sess.finished .client (T ++ auth.flatten)) (by omega)
  rw [Step.bind_of_ok b1] at hw
  obtain ⟨s3, c1, c2⟩ := flush_calm b2
  have hon : ∀ k : ClientHandshake, k.stream = s2 → onStream TlsStream.flush k = (.ok (), { k with stream := s3 }) := by
    intro k hk
    unfold onStream
    simp only [hk, c1]
  rw [Step.bind_of_ok (hon _ rfl)] at hw
  obtain ⟨_, _, d3, _⟩ := flush_ok c1
  rw [Step.bind_of_ok (protection_of (p := p2) (by rw [← b5]; exact d3))] at hw
  obtain ⟨p3, hg⟩ := generate_of hx b6 T
  rw [Step.bind_lift_ok hg] at hw
  unfold setProtection at hw
  rw [Step.bind_modify] at hw
  rcases Step.bind_err hw with hw | ⟨u, h6, _, hw⟩
  · unfold logApplicationSecrets at hw
    split at hw <;> exact absurd (Prod.mk.inj hw).1 (by simp)
  · exact absurd (Prod.mk.inj hw).1 (by simp)

/-- When the Finished of the server is taken everything has been sent. -/
theorem finish_flushed {env : ClientEnv} {h h' : ClientHandshake} {hs : Handshake} (hst : h.state = .finished)
    (hw : handleServerFinish env hs h = (.ok (), h')) : h'.stream.buffer = [] ∧ h'.state = .ready := by
  unfold handleServerFinish at hw
  rw [Step.bind_get] at hw
  split_ifs at hw with hty
  · rw [hst] at hw; exact absurd hw Step.throw_ok
  sbind hw with ⟨pp, h1, _, hw⟩
  sbind hw with ⟨y, h2, _, hw⟩
  slift hw with ⟨vd, _, hw⟩
  rw [hst] at hw
  simp only [] at hw
  split_ifs at hw with hvd
  · exact absurd hw Step.throw_ok
  sbind hw with ⟨u, h3, _, hw⟩
  sbind hw with ⟨y, h4, _, hw⟩
  sbind hw with ⟨u, h5, _, hw⟩
  sbind hw with ⟨pp2, h6, _, hw⟩
  sbind hw with ⟨y, h7, _, hw⟩
  slift hw with ⟨fin, _, hw⟩
  sbind hw with ⟨u, h8, _, hw⟩
  sbind hw with ⟨u, h9, e14, hw⟩
  obtain ⟨s3, e15, rfl⟩ := onStream_ok e14
  obtain ⟨c1, c2, c3, c4⟩ := flush_ok e15
  sbind hw with ⟨pp3, h10, e16, hw⟩
  have e16 := (Prod.mk.inj e16).2
  subst e16
  slift hw with ⟨p', _, hw⟩
  unfold setProtection at hw
  rw [Step.bind_modify] at hw
  sbind hw with ⟨u, h11, e18, hw⟩
  obtain ⟨l, rfl, _⟩ := logApp_ok e18
  have hw := Step.modify_ok.1 hw
  subst hw
  exact ⟨c2, rfl⟩

/-! ### The invariant -/

/-- The client has the handshake keys of the session and has written nothing with them: `w` is all that was written. -/
def Keyed (x : Params) (w : Bytes) (h : ClientHandshake) : Prop :=
  h.stream.stream.written = w ∧ h.stream.buffer = [] ∧ ∃ p, h.stream.protection = some p ∧ p.cipher = x.c ∧ wKey p = x.hsKey .client 0

/-- The client has the handshake keys, or it is done; nothing waits in the buffer. -/
def At (env : ClientEnv) (x : Params) (w : Bytes) (h : ClientHandshake) : Prop :=
  Keyed x w h ∧ h.state ≠ .ready ∨ h.stream.buffer = [] ∧ h.state = .ready ∧ ∃ seen, Done env x w seen h.stream h.logged

theorem Keyed.same {x : Params} {w : Bytes} {h h' : ClientHandshake} (hk : Keyed x w h) (hs : h'.stream = h.stream) : Keyed x w h' := by
  unfold Keyed
  rw [hs]
  exact hk

theorem extensions_state {m : Handshake} {h h' : ClientHandshake} (hw : handleEncryptedExtension m h = (.ok (), h')) : h'.state ≠ .ready := by
  unfold handleEncryptedExtension at hw
  split_ifs at hw
  · exact absurd hw Step.throw_ok
  sbind hw with ⟨u, h1, _, hw⟩
  rw [Step.modify_ok.1 hw]
  simp

theorem request_state {m : Handshake} {h h' : ClientHandshake} (hw : (do
      .modify fun h => { h with certificateRequest := some m.fraqment }
      updateTshash m.raw
      setState .serverCertificate : M Unit) h = (.ok (), h')) : h'.state ≠ .ready := by
  rw [Step.bind_modify] at hw
  sbind hw with ⟨u, h1, _, hw⟩
  rw [Step.modify_ok.1 hw]
  simp

theorem certificate_state {env : ClientEnv} {m : Handshake} {h h' : ClientHandshake} (hw : handleServerCertificate env m h = (.ok (), h')) : h'.state ≠ .ready := by
  unfold handleServerCertificate at hw
  split_ifs at hw
  · exact absurd hw Step.throw_ok
  sbind hw with ⟨u, h1, _, hw⟩
  cases hfh : Certificate.fromHello env.now m.fraqment with
  | panic => rw [hfh] at hw; exact absurd hw Step.crash_ok
  | err e => rw [hfh] at hw; rw [Step.modify_ok.1 hw]; simp
  | ok certs =>
    rw [hfh] at hw
    simp only [] at hw
    slift hw with ⟨c, _, hw⟩
    rw [Step.bind_modify] at hw
    rw [Step.modify_ok.1 hw]; simp

theorem certificateVerify_state {m : Handshake} {h h' : ClientHandshake} (hw : handleServerCertificateVerify m h = (.ok (), h')) : h'.state ≠ .ready := by
  unfold handleServerCertificateVerify at hw
  rw [Step.bind_get] at hw
  cases hsc : h.serverCert with
  | none => rw [hsc] at hw; exact absurd hw Step.throw_ok
  | some cert =>
    rw [hsc] at hw
    simp only [] at hw
    split_ifs at hw
    · exact absurd hw Step.throw_ok
    slift hw with ⟨a, _, hw⟩
    slift hw with ⟨algo, _, hw⟩
    split_ifs at hw
    · exact absurd hw Step.crash_ok
    slift hw with ⟨der, _, hw⟩
    cases hfd : Signature.fromDer der with
    | panic => rw [hfd] at hw; exact absurd hw Step.crash_ok
    | err e => rw [hfd] at hw; rw [Step.modify_ok.1 hw]; simp
    | ok v =>
      obtain ⟨sig, size⟩ := v
      rw [hfd] at hw
      simp only [] at hw
      sbind hw with ⟨t, h1, _, hw⟩
      slift hw with ⟨v, _, hw⟩
      split_ifs at hw
      · rw [Step.modify_ok.1 hw]; simp
      · sbind hw with ⟨u, h2, _, hw⟩
        slift hw with ⟨l, _, hw⟩
        split_ifs at hw
        · rw [Step.modify_ok.1 hw]; simp
        · rw [Step.modify_ok.1 hw]; simp

theorem finish_kept {env : ClientEnv} {h h' : ClientHandshake} {hs : Handshake} {e e' : TlsError} (hst : h.state = .finishWithError e)
    (hw : handleServerFinish env hs h = (.err e', h')) : h' = h := by
  unfold handleServerFinish at hw
  rw [Step.bind_get] at hw
  split_ifs at hw with hty
  · rw [hst] at hw
    exact absurd (Prod.mk.inj hw).1 (by simp)
  · rcases Step.bind_err hw with hw | ⟨p, h1, e1, hw⟩
    · exact (Prod.mk.inj hw).2.symm
    have e1 := (Prod.mk.inj e1).2
    subst e1
    rcases Step.bind_err hw with hw | ⟨y, h1, e1, hw⟩
    · exact (Prod.mk.inj hw).2.symm
    have e1 := (Prod.mk.inj e1).2
    subst e1
    rcases Step.lift_bind_err hw with ⟨_, rfl⟩ | ⟨vd, _, hw⟩
    · rfl
    rw [hst] at hw
    exact (Prod.mk.inj hw).2.symm

/-- One message: the invariant holds afterwards, also when the message is refused. -/
theorem message_at {env : ClientEnv} {x : Params} (hx : x.Ok) {w seen : Bytes} {nr : Nat} {h h' : ClientHandshake} {hs : Handshake} {r : Res TlsError Unit}
    (hkc : Keyful env) (hcl : ∀ c, env.config.clientCert = some c → c.raw.length + 400 ≤ 2 ^ 24)
    (hw : handleMessage env hs h = (r, h')) (hne : r ≠ .panic) (hi : Inv env x w seen nr h) (hm : (x.hellos ++ seen).length < 2 ^ 51)
    (hraw : hs.raw = Tls13.handshakeMessage hs.handshakeType.code hs.fraqment) (hns : h.state ≠ .serverHello) (hc : Calm h.stream) (ha : At env x w h) :
    (∀ e, r = .err e → Keyed x w h') ∧ (r = .ok () → At env x w h') := by
  have hok : r = .ok () → h'.state = .ready → h'.stream.buffer = [] → At env x w h' := by
    rintro rfl hr hb
    obtain ⟨i1, _, _⟩ := message_inv hx hw hi hm (fun c h => by have := hcl c h; omega) hraw
    unfold Inv at i1
    simp only [hr] at i1
    exact .inr ⟨hb, hr, _, i1⟩
  have hcases : h.stream.buffer = [] := by
    rcases ha with ha | ha
    · exact ha.1.2.1
    · exact ha.1
  have plain : ∀ m : M Unit, m h = (r, h') → (m h).2.stream = h.stream → (∀ k, m h = (.ok (), k) → k.state ≠ .ready) → Keyed x w h →
      (∀ e, r = .err e → Keyed x w h') ∧ (r = .ok () → At env x w h') := by
    intro m hm hsm hst hk
    rw [hm] at hsm
    refine ⟨fun e _ => hk.same hsm, ?_⟩
    rintro rfl
    exact .inl ⟨hk.same hsm, hst _ hm⟩
  unfold handleMessage at hw
  rw [Step.bind_get] at hw
  cases hst : h.state with
  | serverHello => exact absurd hst hns
  | encryptedExtensions =>
    rw [hst] at hw
    have hk : Keyed x w h := by
      rcases ha with ha | ha
      · exact ha.1
      · rw [hst] at ha; exact absurd ha.2.1 (by simp)
    exact plain _ hw (same_extensions _ _) (fun k hk => extensions_state hk) hk
  | clientCertificateRequest =>
    rw [hst] at hw
    have hk : Keyed x w h := by
      rcases ha with ha | ha
      · exact ha.1
      · rw [hst] at ha; exact absurd ha.2.1 (by simp)
    simp only [] at hw
    split_ifs at hw
    · exact plain _ hw (same_request _ _) (fun k hk => request_state hk) hk
    · exact plain _ hw (same_certificate _ _ _) (fun k hk => certificate_state hk) hk
  | serverCertificate =>
    rw [hst] at hw
    have hk : Keyed x w h := by
      rcases ha with ha | ha
      · exact ha.1
      · rw [hst] at ha; exact absurd ha.2.1 (by simp)
    simp only [] at hw
    split_ifs at hw
    · exact plain _ hw (same_request _ _) (fun k hk => request_state hk) hk
    · exact plain _ hw (same_certificate _ _ _) (fun k hk => certificate_state hk) hk
  | serverCertificateVerify =>
    rw [hst] at hw
    have hk : Keyed x w h := by
      rcases ha with ha | ha
      · exact ha.1
      · rw [hst] at ha; exact absurd ha.2.1 (by simp)
    exact plain _ hw (same_certificateVerify _ _) (fun k hk => certificateVerify_state hk) hk
  | finished =>
    rw [hst] at hw
    have hk : Keyed x w h := by
      rcases ha with ha | ha
      · exact ha.1
      · rw [hst] at ha; exact absurd ha.2.1 (by simp)
    simp only [] at hw
    unfold Inv at hi
    simp only [hst] at hi
    obtain ⟨p, j1, j2, j3, j4, j5⟩ := hi
    refine ⟨?_, ?_⟩
    · rintro e rfl
      rw [finish_refused hx hkc hcl hw hst j1 j2 j3 hm hc hraw]
      exact hk
    · rintro rfl
      obtain ⟨g1, g2⟩ := finish_flushed hst hw
      exact hok rfl g2 g1
  | finishWithError e0 =>
    rw [hst] at hw
    have hk : Keyed x w h := by
      rcases ha with ha | ha
      · exact ha.1
      · rw [hst] at ha; exact absurd ha.2.1 (by simp)
    refine ⟨?_, ?_⟩
    · rintro e rfl
      rw [finish_kept hst hw]
      exact hk
    · rintro rfl
      have := finish_err hst hw
      subst this
      exact .inl ⟨hk, by rw [hst]; simp⟩
  | ready =>
    rw [hst] at hw
    have h1 := (Prod.mk.inj hw).1
    have h2 := (Prod.mk.inj hw).2
    subst h1 h2
    exact ⟨fun e he => absurd he (by simp), fun _ => ha⟩

/-- The messages of one record. -/
theorem messages_at {env : ClientEnv} {x : Params} (hx : x.Ok) {w : Bytes} {nr : Nat} (hkc : Keyful env)
    (hcl : ∀ c, env.config.clientCert = some c → c.raw.length + 400 ≤ 2 ^ 24) :
    ∀ (fuel : Nat) (rest seen : Bytes) (h h' : ClientHandshake) (r : Res TlsError Unit), (x.hellos ++ seen ++ rest).length < 2 ^ 51 → Inv env x w seen nr h →
      h.state ≠ .serverHello → Calm h.stream → At env x w h → messagesLoop env fuel rest h = (r, h') → r ≠ .panic →
      (∀ e, r = .err e → Keyed x w h' ∨ At env x w h') ∧ (r = .ok () → At env x w h')
  | 0, rest, seen, h, h', r, _, _, _, _, ha, hw, hne => by
    unfold messagesLoop at hw
    split_ifs at hw
    · have h1 := (Prod.mk.inj hw).1
      have h2 := (Prod.mk.inj hw).2
      subst h1 h2
      exact ⟨fun e he => absurd he (by simp), fun _ => ha⟩
    · exact absurd (Prod.mk.inj hw).1.symm hne
  | fuel + 1, rest, seen, h, h', r, hl, hi, hns, hc, ha, hw, hne => by
    unfold messagesLoop at hw
    split_ifs at hw
    · have h1 := (Prod.mk.inj hw).1
      have h2 := (Prod.mk.inj hw).2
      subst h1 h2
      exact ⟨fun e he => absurd he (by simp), fun _ => ha⟩
    cases hf : Handshake.fromRaw rest with
    | panic =>
      rw [hf] at hw
      exact absurd (Prod.mk.inj hw).1.symm hne
    | err e =>
      rw [hf] at hw
      have h1 := (Prod.mk.inj hw).1
      have h2 := (Prod.mk.inj hw).2
      subst h1 h2
      exact ⟨fun e he => .inr ha, fun he => absurd he (by simp)⟩
    | ok hs =>
      rw [Step.bind_lift_ok hf] at hw
      obtain ⟨g1, g2, _, _⟩ := handshake_inv hf
      have hlen := congrArg List.length g2
      rw [List.length_append] at hlen
      simp only [List.length_append] at hl
      rcases hm : handleMessage env hs h with ⟨r1, h1⟩
      have hstep := fun hp => message_at hx hkc hcl hm hp hi (by rw [List.length_append]; omega) g1 hns hc ha
      cases r1 with
      | panic =>
        rw [Step.bind_of_panic hm] at hw
        exact absurd (Prod.mk.inj hw).1.symm hne
      | err e =>
        rw [Step.bind_of_err hm] at hw
        have h1 := (Prod.mk.inj hw).1
        have h2 := (Prod.mk.inj hw).2
        subst h1 h2
        exact ⟨fun e' he => .inl ((hstep (by simp)).1 e rfl), fun he => absurd he (by simp)⟩
      | ok u =>
        rw [Step.bind_of_ok hm] at hw
        obtain ⟨i1, i2, i3⟩ := message_inv hx hm hi (by rw [List.length_append]; omega) (fun c h => by have := hcl c h; omega) g1
        have hc1 : Calm h1.stream := by
          have := (calm_keeps env).message hs h hc
          rw [hm] at this
          exact this
        exact messages_at hx hkc hcl fuel _ _ h1 h' r (by simp only [List.length_append]; omega) i1 i3 hc1 ((hstep (by simp)).2 rfl) hw hne

end ClientProof
end ATLS
