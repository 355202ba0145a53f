import Verif.Spec.Forbidden
import Verif.Props.Refused
import Verif.Props.ReasonExample
import Verif.Props.Early
/-
C118: forbidden change_cipher_spec records.
-/
namespace ATLS
open ATLS.Model ATLS.Spec ATLS.RecProof FlowProof RfcProof

/-- C118, before the ClientHello: a change_cipher_spec record, whatever its value and whatever follows, ends the handshake with unexpected_message, and that is what
the client is told. -/
def C118_first_statement : Prop :=
  ∀ (env : ServerEnv) (reads : List Bytes) (content w x : Bytes) (more : List Bytes), Tls13.IsRecord 20#8 content w → (w ++ x).length ≤ 4096 →
    ∃ h, ServerConnection.accept env reads ⟨(w ++ x) :: more, [], []⟩ = (.err .unexpectedMessage, h) ∧
      h.stream.stream.written = Tls13.plainRecord 21#8 [2#8, 10#8]

/-- C118, protected: a change_cipher_spec record under the client's handshake key as the first record after the ClientHello ends the handshake with unexpected_message, and that is what the client is told. -/
def C118_protected_statement : Prop :=
  ∀ (env : ServerEnv) (reads : List Bytes) (r : Exchange) (rng : Rng) (context : Option Bytes) (content w : Bytes) (more incoming : List Bytes),
    env.config.prngType = .urandom → env.config.cert.raw.length + 200 ≤ 2 ^ 24 → Tls13.IsRecord 22#8 r.ch r.chRec →
    HelloAnsweredBy env reads r.x r.ch r.sh r.ccs rng → Drawn env rng context → ServerFlight env r.x context r.flight →
    Tls13.Protected (aead r.x.c) (r.x.sess.key .client) (r.x.sess.iv .client) 0 20#8 content w → r.chRec.length ≤ 4096 → (∀ v ∈ w :: more, NoAlert v) →
    Tls13.Delivers 4096 (w :: more) incoming →
    ∃ h swire alert, ServerConnection.accept env reads ⟨r.chRec :: incoming, [], []⟩ = (.err .unexpectedMessage, h) ∧
      Tls13.Sent (aead r.x.c) (r.x.sess.key .server) (r.x.sess.iv .server) 0 r.flight swire ∧
      Tls13.Protected (aead r.x.c) (r.x.sess.key .server) (r.x.sess.iv .server) r.flight.length 21#8 [2#8, 10#8] alert ∧
      h.stream.stream.written = Tls13.plainRecord 22#8 r.sh ++ r.ccs ++ swire ++ alert

/-- C118, after the ClientHello: no handshake completes in which the record after the ClientHello is a change_cipher_spec record with a wrong value. -/
def C118_value_statement : Prop :=
  ∀ (env : ServerEnv) (reads : List Bytes) (ch chRec w : Bytes) (more incoming : List Bytes), Tls13.IsRecord 22#8 ch chRec → Tls13.WrongCcs w →
    Tls13.Delivers 4096 (chRec :: w :: more) incoming → ∀ s h, ServerConnection.accept env reads ⟨incoming, [], []⟩ ≠ (.ok s, h)

/-- C118 in full. -/
def C118_statement : Prop := C118_first_statement ∧ C118_protected_statement ∧ C118_value_statement

theorem C118_first_partial : C118_first_statement := by
  intro env rng content w x more hw hl
  obtain ⟨v1, v2, hcl, rfl⟩ := hw
  have key := RecProof.fromRaw_header .changeCipherSpec v1 v2 content x hcl
  rw [RecProof.beBytes2] at hl ⊢
  obtain ⟨part, hpart⟩ : ∃ part, part = [20#8, v1, v2] ++ [BitVec.ofNat 8 (content.length / 256), BitVec.ofNat 8 content.length] ++ content ++ x := ⟨_, rfl⟩
  rw [← hpart] at hl ⊢
  have hp : part ≠ [] := by rw [hpart]; simp
  have key : ∃ n r, Record.fromRaw part = .ok (n, r) ∧ r.contentType = .changeCipherSpec := by
    rw [hpart]
    exact ⟨_, _, key, rfl⟩
  obtain ⟨n, r, key, hr⟩ := key
  have hne : part.length ≠ 0 := fun h => hp (List.eq_nil_of_length_eq_zero h)
  obtain ⟨fuel, hf⟩ : ∃ fuel, fuel = (((part :: more).map List.length).sum + (part :: more).length + 1) := ⟨_, rfl⟩
  unfold ServerConnection.accept ServerHandshake.doHandshakeWithError ServerHandshake.doHandshake
  have hread : ∀ h0 : ServerHandshake, h0 = ServerHandshake.new env (TlsStream.new ⟨part :: more, [], []⟩) rng → ∃ h1 : ServerHandshake,
      h1.stream.stream.failures = [] ∧ h1.stream.stream.written = [] ∧ h1.stream.protection = none ∧
      ServerHandshake.readLoop env (fuel + 1) h0 = (.err .unexpectedMessage, h1) := by
    intro h0 h0e
    refine ⟨{ h0 with stream := { h0.stream with stream := { h0.stream.stream with incoming := more } } }, by rw [h0e]; rfl, by rw [h0e]; rfl, by rw [h0e]; rfl, ?_⟩
    unfold ServerHandshake.readLoop
    rw [Step.bind_get, if_neg (by rw [h0e]; exact fun h => by cases h)]
    have hr1 : (ServerHandshake.onStream fun s => s.tcpRead 4096) h0 = (.ok part, { h0 with stream := { h0.stream with stream := { h0.stream.stream with incoming := more } } }) := by
      have hi : h0.stream.stream.incoming = part :: more := by rw [h0e]; rfl
      unfold ServerHandshake.onStream TlsStream.tcpRead
      simp only [hi]
      rw [List.take_of_length_le hl, List.drop_of_length_le hl, if_neg hp, if_pos rfl]
    obtain ⟨m, hm'⟩ : ∃ m, part.length = m + 1 := ⟨part.length - 1, by omega⟩
    refine (Step.bind_of_ok hr1).trans ?_
    rw [hm']
    unfold ServerHandshake.recordsLoop
    rw [if_neg hp, key]
    have hh : ∀ h : ServerHandshake, h.state = .clientHello → ServerHandshake.handleRecord env r h = (.err .unexpectedMessage, h) := by
      intro h hs
      unfold ServerHandshake.handleRecord
      rw [Step.bind_get, hr]
      simp only []
      rw [if_pos hs]
      rfl
    refine Step.bind_of_err ?_
    rw [Step.bind_lift_ok rfl]
    exact Step.bind_of_err (hh _ (by rw [h0e]; rfl))
  obtain ⟨h1, hf1, hw1, hp1, hh⟩ := hread _ rfl
  have hfuel : ((ServerHandshake.new env (TlsStream.new ⟨part :: more, [], []⟩) rng).stream.stream.incoming.map List.length).sum +
      (ServerHandshake.new env (TlsStream.new ⟨part :: more, [], []⟩) rng).stream.stream.incoming.length + 2 = fuel + 1 := by rw [hf]; rfl
  rw [hfuel, hh]
  rcases h1 with ⟨⟨⟨i, f, w⟩, p, b⟩, _⟩
  simp only at hf1 hp1 hw1
  subst hf1 hp1 hw1
  exact ⟨_, rfl, rfl⟩

theorem C118_protected_partial : C118_protected_statement := by
  intro env reads r rng context content w more incoming hu hcert hello answered drawn flight hw hl hall hd
  have hl' : r.ch.length ≤ 4096 := by
    obtain ⟨v1, v2, _, he⟩ := hello
    rw [he] at hl
    simp only [List.length_append] at hl
    omega
  obtain ⟨swire, p, k0, hx, b1, b2, b3, b4, b5, b6, b7, b8, b9, b10, rec0, b11⟩ := ServerProof.server_begun hu hcert hello hl' answered drawn flight
  obtain ⟨rec, p', h1, h2, h3, h4⟩ := opens hx b5 (by omega) (t := .changeCipherSpec) (by decide) hw
  have hd1 : ServerHandshake.decryptRecord rec k0 = (.ok (.changeCipherSpec, content), { k0 with stream := k0.stream.setProtection (some p') }) := by
    unfold ServerHandshake.decryptRecord
    have : ServerHandshake.getProtection k0 = (.ok p, k0) := by
      unfold ServerHandshake.getProtection
      rw [b4]
      rfl
    refine (Step.bind_of_ok this).trans ?_
    rw [h3]
  have he : ServerHandshake.handleEncryptedRecord env rec k0 = (.err .unexpectedMessage, { k0 with stream := k0.stream.setProtection (some p') }) := by
    unfold ServerHandshake.handleEncryptedRecord
    refine (Step.bind_of_ok hd1).trans ?_
    simp only []
    rw [Step.bind_get, if_pos (Or.inl (by show RecordType.changeCipherSpec ≠ .handshake; decide)), if_neg (by show ¬ RecordType.changeCipherSpec = .alert; decide)]
    rfl
  have hh : ServerHandshake.handleRecord env rec k0 = (.err .unexpectedMessage, { k0 with stream := k0.stream.setProtection (some p') }) := by
    rw [← he]
    unfold ServerHandshake.handleRecord
    rw [Step.bind_get, h2]
    simp only []
    rw [b6]
    cases env.config.clientCertCa <;> rfl
  have hfeed : ServerProof.feed env (w :: more) k0 = (.err .unexpectedMessage, { k0 with stream := k0.stream.setProtection (some p') }) := by
    rw [ServerProof.feed, Step.bind_lift_ok h1]
    exact Step.bind_of_err hh
  have hfn : r.flight.length < 2 ^ 63 := by
    obtain ⟨request, cv, h1, _, h2⟩ := flight
    unfold Requested at h1
    rw [h2]
    cases hca : env.config.clientCertCa with
    | none => rw [hca] at h1; rw [h1.2]; simp
    | some ca => rw [hca] at h1; obtain ⟨c, _, _, h1⟩ := h1; rw [h1]; simp
  obtain ⟨h, a, g1, g2, g3⟩ := ServerProof.accept_alert env reads (Q := fun a => Tls13.Protected (aead r.x.c) (r.x.sess.key .server) (r.x.sess.iv .server) r.flight.length 21#8
      (alertContent .unexpectedMessage) a) ⟨22#8, r.ch, by decide, hello⟩ hl hall hd b2 hfeed rfl (by simp [NotAnswered]) (by
    intro s hs hf
    obtain ⟨a, s', f1, f2, f3⟩ := AlertProof.alert_sealed (cs := r.x.cs) (e := .unexpectedMessage) (seq := r.flight.length) hs (by rw [h4.cipher]; exact hx.cipher)
      (by rw [h4.w]; exact hsKey_sizes _ _ _) (by rw [h4.w]; rfl) hfn hf
    rw [h4.w, h4.cipher] at f3
    exact ⟨a, s', f1, f2, f3⟩)
  exact ⟨h, swire, a, g1, b1, g3, by rw [g2, b3]⟩

/-- What the server does instead with a wrong value: nothing. Any client that it completes the handshake with may send it such a record after its ClientHello. -/
theorem C118_ignored (env : ServerEnv) (reads : List Bytes) (r : Exchange) (rng : Rng) (context : Option Bytes) (auth : List Bytes) (rest content w : Bytes)
    (records incoming : List Bytes) (hu : env.config.prngType = .urandom) (hcert : env.config.cert.raw.length + 200 ≤ 2 ^ 24)
    (hc : Conforming env reads r rng context auth rest records) (hw : Tls13.IsRecord 20#8 content w) (hd : Tls13.Delivers 4096 (r.chRec :: w :: records) incoming) :
    ∃ s h, ServerConnection.accept env reads ⟨incoming, [], []⟩ = (.ok s, h) := by
  obtain ⟨s, h, _, _, h1, _⟩ := C75_server_completes env reads r rng context auth rest (w :: records) [] incoming hu hcert
    { hc with records := .ccs _ _ _ _ _ hw hc.records } (by simp) (by simpa using hd)
  exact ⟨s, h, h1⟩

theorem C118_false : ¬ C118_statement := by
  rintro ⟨_, _, H⟩
  obtain ⟨_, ca, kc, ks, q, r, rng, auth, ws, cws, R⟩ := PairProof.example_runs
  have hcl : (Spec.X509.certificate ownTbs ownR ownS).length + 200 ≤ 2 ^ 24 := by decide +kernel
  have hw : Tls13.IsRecord 20#8 [2#8] (Tls13.plainRecord 20#8 [2#8]) := ⟨3#8, 3#8, by decide, by decide⟩
  have hd : Tls13.Delivers 4096 (r.chRec :: Tls13.plainRecord 20#8 [2#8] :: cws) (r.chRec :: Tls13.plainRecord 20#8 [2#8] :: cws) :=
    Tls13.delivers_single fun v hv => by
      rcases List.mem_cons.1 hv with rfl | hv
      · exact R.fromClient _ (by simp)
      · rcases List.mem_cons.1 hv with rfl | hv
        · decide
        · exact R.fromClient _ (by simp [hv])
  obtain ⟨s, h, hs⟩ := C118_ignored _ _ r rng _ auth [] [2#8] _ cws _ rfl hcl R.client hw hd
  exact H _ _ r.ch r.chRec _ cws _ R.client.hello ⟨[2#8], by decide, hw⟩ hd s h hs

/-- A change_cipher_spec record as the first thing a server gets, with something behind it. -/
example : Tls13.IsRecord 20#8 [1#8] [20, 3, 3, 0, 1, 1] ∧ ([20, 3, 3, 0, 1, 1] ++ [22, 3, 1, 0] : Bytes).length ≤ 4096 := ⟨⟨3, 3, by decide, by decide⟩, by decide⟩

/-- The hypotheses of `C118_protected_partial` are met by the example server with client authentication; the change_cipher_spec record has the right value but is
protected. -/
example : ∃ (env : ServerEnv) (reads : List Bytes) (r : Exchange) (rng : Rng) (context : Option Bytes) (w : Bytes), env.config.prngType = .urandom ∧ env.config.cert.raw.length + 200 ≤ 2 ^ 24 ∧ Tls13.IsRecord 22#8 r.ch r.chRec ∧
    HelloAnsweredBy env reads r.x r.ch r.sh r.ccs rng ∧ Drawn env rng context ∧ ServerFlight env r.x context r.flight ∧
    Tls13.Protected (aead r.x.c) (r.x.sess.key .client) (r.x.sess.iv .client) 0 20#8 [1#8] w ∧ r.chRec.length ≤ 4096 ∧ (∀ v ∈ [w], NoAlert v) ∧
    Tls13.Delivers 4096 [w] [w] := by
  obtain ⟨_, ca, kc, ks, q, r, rng, auth, ws, cws, R⟩ := PairProof.example_runs
  obtain ⟨w, h1, h2⟩ := ReasonProof.protects R.ok .client 0 20#8 [1#8] (by decide)
  refine ⟨_, _, r, rng, _, w, rfl, (show (Spec.X509.certificate ownTbs ownR ownS).length + 200 ≤ 2 ^ 24 by decide +kernel), R.client.hello, R.client.answered, R.client.drawn,
    R.client.flight, h1, R.fromClient _ (by simp), ?_, Tls13.delivers_single fun v hv => by rw [List.mem_singleton.1 hv, h2]; decide⟩
  intro v hv
  rw [List.mem_singleton.1 hv]
  obtain ⟨b, hb⟩ := EarlyProof.protected_whole (k := r.x.hsKey .client 0) R.ok.cipher (hsKey_sizes r.x .client 0) h1
  exact ⟨23#8, b, by decide, hb⟩

end ATLS
