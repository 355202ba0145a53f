import Verif.Proof.Outcome
/-
Steps of the state machines that succeed: writing on a connection without failures, opening conforming records, key derivation.
-/
namespace ATLS.FlowProof
open ATLS ATLS.Model ATLS.Spec RecProof KsProof

/-- No write on the connection fails. -/
def Calm (s : TlsStream) : Prop := s.stream.failures = []

theorem flush_calm {s : TlsStream} (h : Calm s) : ∃ s', s.flush = (.ok (), s') ∧ Calm s' := by
  unfold TlsStream.flush Socket.writeAll
  by_cases hb : s.buffer = []
  · rw [if_pos hb]; exact ⟨_, rfl, h⟩
  · rw [if_neg hb]
    rw [show s.stream.failures = [] from h]
    exact ⟨_, rfl, rfl⟩

theorem write_plain_calm {s : TlsStream} (hc : Calm s) (hp : s.protection = none) (t : RecordType) (data : Bytes) :
    ∃ s', s.writeRecord t data = (.ok (), s') ∧ Calm s' := by
  unfold TlsStream.writeRecord TlsStream.protectRecord
  rw [hp]
  simp only []
  split_ifs with hl
  · exact flush_calm (s := { s with buffer := s.buffer ++ (Record.new t data).asBytes }) hc
  · exact ⟨_, rfl, hc⟩

/-- A record of any content can be written under the handshake keys. -/
theorem write_prot_calm {x : Params} (hx : x.Ok) {b : Bool} {s : TlsStream} {p : RecordPayloadProtection} {nw nr : Nat} (hc : Calm s) (hp : s.protection = some p)
    (hk : HsProt x b p nw nr) (hn : nw < 2 ^ 63) (t : RecordType) {m : Bytes} (hm : m.length + 64 ≤ 2 ^ 24) :
    ∃ s', s.writeRecord t m = (.ok (), s') ∧ Calm s' := by
  obtain ⟨wire, p', he, _, _⟩ := encrypt_spec x.cs p (by rw [hk.cipher]; exact hx.cipher) (by rw [hk.w]; exact hsKey_sizes x _ _)
    (by rw [hk.w]; exact seq_ne hn) t m hm
  unfold TlsStream.writeRecord TlsStream.protectRecord
  rw [hp]
  simp only []
  rw [he]
  simp only []
  split_ifs with hl
  · exact flush_calm (s := { s with protection := some p', buffer := s.buffer ++ wire }) hc
  · exact ⟨_, rfl, hc⟩

/-- A record that RFC 8446 prescribes for this point is opened, whatever its padding. -/
theorem opens {x : Params} (hx : x.Ok) {b : Bool} {p : RecordPayloadProtection} {nw nr : Nat} (h : HsProt x b p nw nr) (hn : nr < 2 ^ 63)
    {t : RecordType} (ht : t ≠ .invalid) {content wire : Bytes}
    (hw : Tls13.Protected (aead x.c) (x.sess.key (if b then .server else .client)) (x.sess.iv (if b then .server else .client)) nr t.code content wire) :
    ∃ r p', Record.fromRaw wire = .ok (wire.length, r) ∧ r.contentType = .applicationData ∧
      p.decrypt r = (.ok (t, content), p') ∧ HsProt x b p' nw (nr + 1) := by
  obtain ⟨ct, tag, n, hl, rfl, he⟩ := hw
  obtain ⟨k, hke⟩ : ∃ k, k = x.hsKey (if b then .server else .client) nr := ⟨_, rfl⟩
  have hseq : k.sequenceNumber.toNat = nr := by rw [hke]; exact seq_toNat hn
  have he' : x.c.encrypt k.key (Tls13.nonce k.iv k.sequenceNumber.toNat) (content ++ [t.code] ++ zeros n)
      ([23#8, 3#8, 3#8] ++ beBytes 2 (content.length + 1 + n + 16)) = .ok (ct, tag) := by
    unfold aead at he
    rw [hseq, hke]
    have : Tls13.protectedHeader (content.length + 1 + n) = [23#8, 3#8, 3#8] ++ beBytes 2 (content.length + 1 + n + 16) := rfl
    rw [this] at he
    revert he
    generalize hq : x.c.encrypt (x.sess.key (if b then .server else .client)) (Tls13.nonce (x.sess.iv (if b then .server else .client)) nr) (content ++ [t.code] ++ zeros n)
      ([23#8, 3#8, 3#8] ++ beBytes 2 (content.length + 1 + n + 16)) = q
    intro he
    have hq' : x.c.encrypt (x.hsKey (if b then .server else .client) nr).key (Tls13.nonce (x.hsKey (if b then .server else .client) nr).iv nr) (content ++ [t.code] ++ zeros n)
      ([23#8, 3#8, 3#8] ++ beBytes 2 (content.length + 1 + n + 16)) = q := hq
    rw [hq']
    cases q with
    | ok a => simp only [Option.some.injEq] at he; rw [he]
    | err e => cases he
    | panic => cases he
  have hr : rKey p = k := by rw [h.r, hke]
  have hko : KeyOk x.cs k := by rw [hke]; exact hsKey_sizes x _ _
  obtain ⟨ct', tag', g1, g2, g3, _⟩ := C15_aead_round_trip x.cs x.c hx.cipher k.key (Tls13.nonce k.iv k.sequenceNumber.toNat) (content ++ [t.code] ++ zeros n)
    ([23#8, 3#8, 3#8] ++ beBytes 2 (content.length + 1 + n + 16)) (suiteKeys hko _) (by simp; omega)
  rw [he'] at g1
  have g1 := Res.ok.inj g1
  obtain ⟨rfl, rfl⟩ := Prod.mk.inj g1
  obtain ⟨r, p', q1, q2, _, _, q3, q4⟩ := decrypt_spec x.cs p (by rw [h.cipher]; exact hx.cipher) (by rw [hr]; exact hko)
    (by rw [h.r]; exact seq_ne hn) t ht content n (Tls13.protectedHeader (content.length + 1 + n) ++ ct ++ tag) [] (by omega)
    ⟨ct, tag, by simp only [Tls13.protectedHeader, List.append_assoc], by rw [hr, h.cipher]; exact he', by rw [g2]; simp; omega, g3⟩
  rw [List.append_nil] at q1
  refine ⟨r, p', q1, q2, q3, by rw [q4.ks]; exact h.ks, by rw [q4.cipher]; exact h.cipher, by rw [q4.isClient]; exact h.isClient, by rw [q4.w]; exact h.w, ?_⟩
  rw [q4.r, h.r, hsKey_next]

theorem fromHandshake_of {x : Params} (hm : x.hellos.length < 2 ^ 53) {pk : PrivateKey} {kse : KeyShareEntry} (hg : kse.group = .x25519)
    (hs : sharedSecret pk kse.opaq = .ok x.ecdhe) : KeySchedule.fromHandshake (ts x.t x.hellos) pk kse = .ok x.ks ∧ x.ecdhe.length = 32 := by
  have hl : x.ecdhe.length = 32 := by
    unfold sharedSecret at hs
    obtain ⟨sh, _, h2⟩ := Res.bind_eq_ok.1 hs
    exact to32_length h2
  refine ⟨?_, hl⟩
  unfold KeySchedule.fromHandshake
  rw [if_neg (by simp [hg]), hs]
  have hf : (ts x.t x.hellos).finalize.length = (rfcHash (ts x.t x.hellos).getType).out := ts_finalize_length _
  simp only [Res.mapErr, Res.ok_bind]
  rw [C25_secrets _ _ x.ecdhe hf (by omega)]
  rw [ts_finalize x.t x.hellos hm, ts_type]
  rfl

theorem new_of {x : Params} (hx : x.Ok) (b : Bool) : ∃ p, RecordPayloadProtection.new x.ks x.c b = .ok p := by
  unfold RecordPayloadProtection.new
  have hcs := suite_of_cipher hx.cipher
  have hm : (Tls13.masterSecret (rfcHash x.t) x.ecdhe).length ≤ 64 := by have := master_le x; omega
  have hk := (C25_traffic_keys x.t x.cs (x.sess.secret .client) (x.sess.secret .server) (Tls13.masterSecret (rfcHash x.t) x.ecdhe)
    (zeros (rfcHash x.t).out) (by have := secret_le x .client; omega) (by have := secret_le x .server; omega) hm (zeros_length _)).1
  rw [hcs]
  have : WriteKeys.handshakeKeys x.ks x.cs = _ := hk
  rw [this]
  exact ⟨_, rfl⟩

theorem generate_of {x : Params} (hx : x.Ok) {b : Bool} {p : RecordPayloadProtection} {nw nr : Nat} (h : HsProt x b p nw nr) (m : Bytes) :
    ∃ p', p.generateApplicationKeys (ts x.t m) = .ok p' := by
  have hcs := suite_of_cipher hx.cipher
  have hk := (C25_traffic_keys x.t x.cs (x.sess.secret .client) (x.sess.secret .server) (Tls13.masterSecret (rfcHash x.t) x.ecdhe)
    (ts x.t m).finalize (by have := secret_le x .client; omega) (by have := secret_le x .server; omega) (by have := master_le x; omega)
    (by rw [ts_finalize_length, ts_type])).2
  unfold RecordPayloadProtection.generateApplicationKeys
  rw [h.cipher, hcs, h.ks]
  have e : x.ks.hkdfMasterSecret = ⟨x.t, Tls13.masterSecret (rfcHash x.t) x.ecdhe⟩ := rfl
  rw [e, hk]
  exact ⟨_, rfl⟩

/-- A handshake message with the length its header states is parsed. -/
theorem fromRaw_message (t : HandshakeType) (body rest : Bytes) (h : body.length < 2 ^ 24) :
    Handshake.fromRaw (Tls13.handshakeMessage t.code body ++ rest) = .ok ⟨t, body, Tls13.handshakeMessage t.code body⟩ := by
  obtain ⟨_, k, h1, h2, h3, h4⟩ := C34_framing_partial t body rest h
  rw [toBytes_eq] at h1 h4
  rw [h1]
  rcases k with ⟨a, b, c⟩
  simp only at h2 h3 h4
  subst h2 h3 h4
  rfl

end ATLS.FlowProof

namespace ATLS.FlowProof
open ATLS ATLS.Model ATLS.Spec RecProof KsProof

/-- The records without the change_cipher_spec records between them. -/
def Plain (a : Tls13.Seal) (key iv : Bytes) : Nat → List Bytes → List Bytes → Prop
  | _, [], ws => ws = []
  | seq, c :: cs, ws => ∃ w rest, ws = w :: rest ∧ Tls13.Protected a key iv seq 22#8 c w ∧ Plain a key iv (seq + 1) cs rest

theorem plain_of {a : Tls13.Seal} {key iv : Bytes} {seq : Nat} {contents records : List Bytes} (h : Tls13.ProtectedFlight a key iv seq contents records) :
    ∃ ws, Tls13.Inserted (fun w => ∃ c, Tls13.IsRecord 20#8 c w) ws records ∧ Plain a key iv seq contents ws := by
  induction h with
  | nil seq => exact ⟨[], .nil, rfl⟩
  | ccs seq cs c w ws h1 _ ih =>
    obtain ⟨ws', h2, h3⟩ := ih
    exact ⟨ws', .add _ _ _ ⟨c, h1⟩ h2, h3⟩
  | cons seq c cs w ws h1 _ ih =>
    obtain ⟨ws', h2, h3⟩ := ih
    exact ⟨w :: ws', .keep _ _ _ h2, w, ws', rfl, h1, h3⟩

/-- A protected record is a whole record of type application_data, if the AEAD adds 16 bytes. -/
theorem protected_isRecord {x : Params} (hx : x.Ok) {side : Tls13.Side} {seq : Nat} {t : Byte} {c w : Bytes} (hn : seq < 2 ^ 63)
    (h : Tls13.Protected (aead x.c) (x.sess.key side) (x.sess.iv side) seq t c w) :
    (∃ b, Tls13.IsRecord 23#8 b w) ∧ ∃ padding, w.length = c.length + padding + 22 ∧ c.length + padding + 17 < 2 ^ 16 := by
  obtain ⟨ct, tag, n, hl, rfl, he⟩ := h
  obtain ⟨ct', tag', g1, g2, g3, _⟩ := C15_aead_round_trip x.cs x.c hx.cipher (x.hsKey side seq).key (Tls13.nonce (x.hsKey side seq).iv seq) (c ++ [t] ++ zeros n)
    (Tls13.protectedHeader (c.length + 1 + n)) (suiteKeys (hsKey_sizes x side seq) _) (by simp [Tls13.protectedHeader, beBytes_length]; omega)
  have g1' : x.c.encrypt (x.sess.key side) (Tls13.nonce (x.sess.iv side) seq) (c ++ [t] ++ zeros n) (Tls13.protectedHeader (c.length + 1 + n)) = .ok (ct', tag') := g1
  unfold aead at he
  rw [g1'] at he
  have he := Option.some.inj he
  obtain ⟨rfl, rfl⟩ := Prod.mk.inj he
  have hcl : (ct' ++ tag').length = c.length + 1 + n + 16 := by
    rw [List.length_append, g2, g3]
    simp
    omega
  refine ⟨⟨ct' ++ tag', 3#8, 3#8, by omega, ?_⟩, n, ?_, hl⟩
  · rw [hcl]
    simp [Tls13.protectedHeader]
  · rw [List.append_assoc, List.length_append, hcl]
    simp [Tls13.protectedHeader, beBytes_length]
    omega

theorem flight_whole {x : Params} (hx : x.Ok) {side : Tls13.Side} {seq : Nat} {contents records : List Bytes}
    (h : Tls13.ProtectedFlight (aead x.c) (x.sess.key side) (x.sess.iv side) seq contents records) (hn : seq + contents.length < 2 ^ 63) :
    ∀ w ∈ records, ∃ t c, (t = 20#8 ∨ t = 23#8) ∧ Tls13.IsRecord t c w := by
  induction h with
  | nil seq => intro w hw; cases hw
  | ccs seq cs c w ws h1 _ ih =>
    intro v hv
    rcases List.mem_cons.1 hv with rfl | hv
    · exact ⟨_, c, .inl rfl, h1⟩
    · exact ih hn v hv
  | cons seq c cs w ws h1 _ ih =>
    intro v hv
    rw [List.length_cons] at hn
    rcases List.mem_cons.1 hv with rfl | hv
    · obtain ⟨⟨b, hb⟩, _⟩ := protected_isRecord hx (by omega) h1
      exact ⟨_, b, .inr rfl, hb⟩
    · exact ih (by omega) v hv

/-- The records of a flight an endpoint sends, separately. -/
theorem sent_flight {x : Params} (hx : x.Ok) {side : Tls13.Side} : ∀ {seq : Nat} {ms : List Bytes} {wire : Bytes},
    Tls13.Sent (aead x.c) (x.sess.key side) (x.sess.iv side) seq ms wire → seq + ms.length < 2 ^ 63 → (∀ m ∈ ms, m.length + 17 < 2 ^ 16) →
    ∃ ws, wire = ws.flatten ∧ Tls13.ProtectedFlight (aead x.c) (x.sess.key side) (x.sess.iv side) seq ms ws ∧
      List.Forall₂ (fun w m => w.length = m.length + 22) ws ms
  | seq, [], wire, h, _, _ => ⟨[], h, .nil _, .nil⟩
  | seq, m :: ms, wire, ⟨ct, tag, rest, h1, h2, h3⟩, hn, hm => by
    rw [List.length_cons] at hn
    obtain ⟨ws, g1, g2, g3⟩ := sent_flight hx h3 (by omega) (fun m' hm' => hm m' (List.mem_cons_of_mem _ hm'))
    have hp : Tls13.Protected (aead x.c) (x.sess.key side) (x.sess.iv side) seq 22#8 m (Tls13.protectedHeader (m.length + 1) ++ ct ++ tag) :=
      ⟨ct, tag, 0, by have := hm m List.mem_cons_self; omega, rfl, by simpa [zeros] using h1⟩
    refine ⟨(Tls13.protectedHeader (m.length + 1) ++ ct ++ tag) :: ws, by rw [h2, g1, List.flatten_cons], .cons _ _ _ _ _ hp g2, .cons ?_ g3⟩
    obtain ⟨ct', tag', q1, q2, q3, _⟩ := C15_aead_round_trip x.cs x.c hx.cipher (x.hsKey side seq).key (Tls13.nonce (x.hsKey side seq).iv seq) (m ++ [22#8])
      (Tls13.protectedHeader (m.length + 1)) (suiteKeys (hsKey_sizes x side seq) _) (by
        have := hm m List.mem_cons_self
        simp [Tls13.protectedHeader, beBytes_length]; omega)
    have q1' : x.c.encrypt (x.sess.key side) (Tls13.nonce (x.sess.iv side) seq) (m ++ [22#8]) (Tls13.protectedHeader (m.length + 1)) = .ok (ct', tag') := q1
    unfold aead at h1
    rw [q1'] at h1
    have h1 := Option.some.inj h1
    obtain ⟨rfl, rfl⟩ := Prod.mk.inj h1
    rw [List.length_append, List.length_append, q2, q3]
    simp [Tls13.protectedHeader, beBytes_length]
    omega

end ATLS.FlowProof
