import Verif.Props.ServerComplete
import Verif.Props.Stream
import Verif.Spec.AppData
/-
Supporting lemmas for C47 and C60: where the handshake stops reading, and reading application data.
-/
namespace ATLS.EarlyProof
open ATLS ATLS.Model ATLS.Spec FlowProof RecProof KsProof

/-- A protected record that RFC 8446 prescribes for the position of the reading key is opened. -/
theorem opens_key {cs : CipherSuite} {p : RecordPayloadProtection} (hc : cs.getCipher = .ok p.cipher) (hk : KeyOk cs (rKey p))
    (hn : (rKey p).sequenceNumber.toNat < 2 ^ 63) {t : RecordType} (ht : t ≠ .invalid) {content wire : Bytes}
    (hw : Tls13.Protected (aead p.cipher) (rKey p).key (rKey p).iv (rKey p).sequenceNumber.toNat t.code content wire) :
    ∃ r p', Record.fromRaw wire = .ok (wire.length, r) ∧ r.contentType = .applicationData ∧ r.len = r.fraqment.length ∧
      p.decrypt r = (.ok (t, content), p') ∧ Step p p' (wKey p) (next (rKey p)) := by
  obtain ⟨ct, tag, n, hl, rfl, he⟩ := hw
  obtain ⟨k, hke⟩ : ∃ k, k = rKey p := ⟨_, rfl⟩
  rw [← hke] at hk hn he
  have he' : p.cipher.encrypt k.key (Tls13.nonce k.iv k.sequenceNumber.toNat) (content ++ [t.code] ++ zeros n)
      ([23#8, 3#8, 3#8] ++ beBytes 2 (content.length + 1 + n + 16)) = .ok (ct, tag) := by
    unfold aead at he
    have : Tls13.protectedHeader (content.length + 1 + n) = [23#8, 3#8, 3#8] ++ beBytes 2 (content.length + 1 + n + 16) := rfl
    rw [this] at he
    revert he
    generalize p.cipher.encrypt k.key (Tls13.nonce k.iv k.sequenceNumber.toNat) (content ++ [t.code] ++ zeros n)
      ([23#8, 3#8, 3#8] ++ beBytes 2 (content.length + 1 + n + 16)) = q
    intro he
    cases q with
    | ok a => simp only [Option.some.injEq] at he; rw [he]
    | err e => cases he
    | panic => cases he
  obtain ⟨ct', tag', g1, g2, g3, _⟩ := C15_aead_round_trip cs p.cipher hc k.key (Tls13.nonce k.iv k.sequenceNumber.toNat) (content ++ [t.code] ++ zeros n)
    ([23#8, 3#8, 3#8] ++ beBytes 2 (content.length + 1 + n + 16)) (suiteKeys hk _) (by simp; omega)
  rw [he'] at g1
  have g1 := Res.ok.inj g1
  obtain ⟨rfl, rfl⟩ := Prod.mk.inj g1
  obtain ⟨r, p', q1, q2, q5, _, q3, q4⟩ := decrypt_spec cs p hc (by rw [← hke]; exact hk) (by
      rw [← hke]
      intro e
      rw [e] at hn
      simp at hn) t ht content n (Tls13.protectedHeader (content.length + 1 + n) ++ ct ++ tag) [] (by omega)
    ⟨ct, tag, by simp only [Tls13.protectedHeader, List.append_assoc], by rw [← hke]; exact he', by rw [g2]; simp; omega, g3⟩
  rw [List.append_nil] at q1
  exact ⟨r, p', q1, q2, q5, q3, q4⟩

theorem next_seq {k : Key} (h : k.sequenceNumber.toNat < 2 ^ 63) : (next k).sequenceNumber.toNat = k.sequenceNumber.toNat + 1 := by
  show (k.sequenceNumber + 1#64).toNat = _
  rw [BitVec.toNat_add]; simp only [BitVec.toNat_ofNat]; omega

/-- Application data that arrives one record per read is read. -/
theorem read_data {cs : CipherSuite} (bufLen : Nat) : ∀ (payloads data later : List Bytes) (s : TlsStream) (p : RecordPayloadProtection), s.protection = some p →
    cs.getCipher = .ok p.cipher → KeyOk cs (rKey p) → (rKey p).sequenceNumber.toNat + payloads.length < 2 ^ 63 →
    Tls13.AppData (aead p.cipher) (rKey p).key (rKey p).iv (rKey p).sequenceNumber.toNat payloads data →
    (∀ x ∈ payloads, x.length ≤ bufLen) → (∀ w ∈ data, w.length ≤ 4096) → s.stream.incoming = data ++ later →
    readPayloads bufLen s payloads.length = .ok payloads
  | [], _, _, _, _, _, _, _, _, _, _, _, _ => rfl
  | x :: xs, data, later, s, p, hp, hc, hk, hn, hd, hx, hw, hi => by
    obtain ⟨w, rest, rfl, h1, h2⟩ := hd
    simp only [List.length_cons] at hn
    obtain ⟨r, p', g1, g2, g3, g4, g5⟩ := opens_key hc hk (by omega) (t := .applicationData) (by decide) h1
    have hwl := hw w (by simp)
    have hne : w ≠ [] := by
      obtain ⟨ct, tag, n, _, rfl, _⟩ := h1
      simp [Tls13.protectedHeader]
    have hread : s.tlsRead bufLen = (.ok x, { s with stream := { s.stream with incoming := rest ++ later }, protection := some p' }) := by
      unfold TlsStream.tlsRead TlsStream.tcpRead
      rw [hi]
      have htk : w.take 4096 = w := List.take_of_length_le hwl
      have hdr : w.drop 4096 = [] := List.drop_of_length_le hwl
      simp only [List.cons_append, htk, hdr]
      rw [if_neg hne]
      simp only []
      rw [g1]
      simp only []
      rw [if_neg (by rw [g3]; simp), hp]
      simp only []
      rw [g4]
      simp only [ne_eq, not_true, if_false]
      rw [deliver_eq _ _ _ (hx x (by simp))]
      simp
    have hseq := next_seq (k := rKey p) (by omega)
    have ih := read_data (cs := cs) bufLen xs rest later { s with stream := { s.stream with incoming := rest ++ later }, protection := some p' } p' rfl
      (by rw [g5.cipher]; exact hc) (by rw [g5.r]; exact hk) (by rw [g5.r, hseq]; omega) (by rw [g5.r, g5.cipher, hseq]; exact h2)
      (fun y hy => hx y (by simp [hy])) (fun v hv => hw v (by simp [hv])) rfl
    rw [List.length_cons, readPayloads, hread]
    simp only []
    rw [ih]
    rfl

theorem appKey_sizes (x : Params) (m : Bytes) (side : Tls13.Side) : KeyOk x.cs (x.appKey m side) := by
  have h1 : (x.sess.appSecret m side).length ≤ 48 := by
    have := out_le x.t
    cases side <;> exact le_trans (expand_le _ _ _ _ _) this
  have h2 := keyLen_le x.cs
  constructor
  · exact (expandQ_eq x.t _ "key" [] _ (by omega) (by simp [String.length]) (by omega)).2
  · exact (expandQ_eq x.t _ "iv" [] 12 (by omega) (by simp [String.length]) (by omega)).2

theorem not_ccs_last {a : Tls13.Seal} {key iv : Bytes} {seq : Nat} {contents records : List Bytes} (h : Tls13.ProtectedFlight a key iv seq contents records) :
    ∀ (cs : List Bytes) (f : Bytes) (init : List Bytes) (fin : Bytes), contents = cs ++ [f] → records = init ++ [fin] → (¬ ∃ c, Tls13.IsRecord 20#8 c fin) →
      Tls13.ProtectedFlight a key iv seq cs init ∧ Tls13.Protected a key iv (seq + cs.length) 22#8 f fin := by
  induction h with
  | nil seq => intro cs f init fin h1; simp at h1
  | ccs seq contents c w ws h1 h2 ih =>
    intro cs f init fin e1 e2 hn
    cases init with
    | nil =>
      rw [List.nil_append, List.cons.injEq] at e2
      exact absurd ⟨c, e2.1 ▸ h1⟩ hn
    | cons v init =>
      rw [List.cons_append, List.cons.injEq] at e2
      obtain ⟨rfl, e2⟩ := e2
      obtain ⟨g1, g2⟩ := ih cs f init fin e1 e2 hn
      exact ⟨.ccs _ _ _ _ _ h1 g1, g2⟩
  | cons seq c contents w ws h1 h2 ih =>
    intro cs f init fin e1 e2 hn
    cases init with
    | nil =>
      rw [List.nil_append, List.cons.injEq] at e2
      obtain ⟨rfl, rfl⟩ := e2
      cases h2
      cases cs with
      | nil =>
        rw [List.nil_append, List.cons.injEq] at e1
        obtain ⟨rfl, _⟩ := e1
        exact ⟨.nil _, h1⟩
      | cons b cs => simp at e1
    | cons v init =>
      rw [List.cons_append, List.cons.injEq] at e2
      obtain ⟨rfl, e2⟩ := e2
      cases cs with
      | nil =>
        rw [List.nil_append, List.cons.injEq] at e1
        obtain ⟨_, rfl⟩ := e1
        exfalso
        clear ih
        -- no content is left, so the last record is change_cipher_spec
        have key : ∀ {seq : Nat} {contents records : List Bytes}, Tls13.ProtectedFlight a key iv seq contents records → contents = [] →
            ∀ r ∈ records, ∃ c, Tls13.IsRecord 20#8 c r := by
          intro seq contents records h
          induction h with
          | nil seq => simp
          | ccs seq contents c w ws h1 _ ih =>
            intro e r hr
            rcases List.mem_cons.1 hr with rfl | hr
            · exact ⟨c, h1⟩
            · exact ih e r hr
          | cons seq c contents w ws h1 _ ih => intro e; cases e
        exact hn (key h2 rfl fin (by rw [e2]; simp))
      | cons b cs =>
        rw [List.cons_append, List.cons.injEq] at e1
        obtain ⟨rfl, e1⟩ := e1
        obtain ⟨g1, g2⟩ := ih cs f init fin e1 e2 hn
        refine ⟨.cons _ _ _ _ _ h1 g1, ?_⟩
        rw [List.length_cons, show seq + (cs.length + 1) = seq + 1 + cs.length by omega]
        exact g2

end ATLS.EarlyProof

namespace ATLS.ServerProof
open ATLS ATLS.Model ATLS.Spec ServerHandshake FlowProof

/-- Reading stops with the read that completes the handshake; what arrives later stays in the socket. -/
theorem reads_stop (env : ServerEnv) (g later : List Bytes) (k1 k2 : ServerHandshake) (hg2 : feed env g k1 = (.ok (), k2)) (hr1 : k1.state ≠ .ready) (hr2 : k2.state = .ready)
    (hg : (∀ w ∈ g, Tls13.WholeRecord w) ∧ g ≠ [] ∧ g.flatten.length ≤ 4096) :
    ∀ (pre : List (List Bytes)) (fuel : Nat) (i : List Bytes) (h k : ServerHandshake),
    (∀ g ∈ pre, (∀ w ∈ g, NoAlert w) ∧ g ≠ [] ∧ g.flatten.length ≤ 4096) → pre.length + 1 < fuel →
    Alike i (pre.map List.flatten ++ g.flatten :: later) k h → h.stream.buffer = [] → feed env pre.flatten k = (.ok (), k1) →
    ∃ h', readLoop env fuel h = (.ok (), h') ∧ Alike i later k2 h' ∧ h'.stream.buffer = []
  | [], fuel, i, h, k, _, hf, ha, hb, hk => by
    obtain ⟨n, rfl⟩ : ∃ n, fuel = n + 2 := ⟨fuel - 2, by simp at hf; omega⟩
    have e := (Prod.mk.inj hk).2
    subst e
    obtain ⟨s, hks, hs⟩ := id ha
    subst hks
    rw [read_step env (g := g) (rest := later) (n + 1) { k with stream := s } hg.1 hg.2.1 hg.2.2 hs.pending' hr1]
    have ha' : Alike i later k { k with stream := { s with stream := { s.stream with incoming := later } } } :=
      ⟨_, rfl, hs.protection, hs.output, hs.calm, hs.calm', hs.pending, rfl⟩
    obtain ⟨h1, h2⟩ := feed_rel env g _ _ ha'
    rcases hk2 : feed env g { k with stream := { s with stream := { s.stream with incoming := later } } } with ⟨r', h1'⟩
    rw [hg2, hk2] at h1 h2
    simp only [] at h1 h2
    subst h1
    obtain ⟨h2', e1, e2, e3⟩ := alike_flush h2
    refine ⟨h2', ?_, e2, e3⟩
    refine (Step.bind_of_ok hk2).trans ((Step.bind_of_ok e1).trans ?_)
    obtain ⟨s', rfl, _⟩ := e2
    unfold readLoop
    rw [Step.bind_get, if_pos hr2]
    rfl
  | g0 :: gs, fuel, i, h, k, hpre, hf, ha, hb, hk => by
    obtain ⟨n, rfl⟩ : ∃ n, fuel = n + 1 := ⟨fuel - 1, by omega⟩
    obtain ⟨s, hks, hs⟩ := id ha
    subst hks
    have hg0 := hpre g0 (by simp)
    have hall : ∀ w ∈ (g0 :: gs).flatten, NoAlert w := by
      intro w hw
      obtain ⟨g', hg', hw'⟩ := List.mem_flatten.1 hw
      exact (hpre g' hg').1 w hw'
    have hst : k.state ≠ .ready := by
      intro hst
      rw [ready_feed env hst _ (fun w hw => (hall w hw).whole) (fun a w b hab k' _ _ => (hall w (by rw [← hab]; simp)).not_alert)] at hk
      rw [(Prod.mk.inj hk).2] at hst
      exact hr1 hst
    rw [read_step env (g := g0) (rest := gs.map List.flatten ++ g.flatten :: later) n { k with stream := s } (fun w hw => (hg0.1 w hw).whole) hg0.2.1 hg0.2.2 hs.pending' hst]
    have ha' : Alike i (gs.map List.flatten ++ g.flatten :: later) k { k with stream := { s with stream := { s.stream with incoming := gs.map List.flatten ++ g.flatten :: later } } } :=
      ⟨_, rfl, hs.protection, hs.output, hs.calm, hs.calm', hs.pending, rfl⟩
    obtain ⟨h1, h2⟩ := feed_rel env g0 _ _ ha'
    rw [List.flatten_cons, feed_append] at hk
    rcases hk1 : feed env g0 k with ⟨r, k0⟩
    rcases hk2 : feed env g0 { k with stream := { s with stream := { s.stream with incoming := gs.map List.flatten ++ g.flatten :: later } } } with ⟨r', h1'⟩
    rw [hk1, hk2] at h1 h2
    simp only [] at h1 h2
    subst h1
    rw [Step.bind_eq, hk1] at hk
    cases r with
    | err e => cases hk
    | panic => cases hk
    | ok u =>
      simp only [] at hk
      obtain ⟨h2', e1, e2, e3⟩ := alike_flush h2
      obtain ⟨h', f1, f2, f3⟩ := reads_stop env g later k1 k2 hg2 hr1 hr2 hg gs n i h2' k0 (fun g' hg' => hpre g' (by simp [hg'])) (by simpa using hf) e2 e3 hk
      exact ⟨h', (Step.bind_of_ok hk2).trans ((Step.bind_of_ok e1).trans f1), f2, f3⟩

/-- `accept` leaves in the socket what arrives after the read with the client's Finished. -/
theorem accept_stop (env : ServerEnv) (rng : List Bytes) {pre : List (List Bytes)} {g later : List Bytes} {k1 k2 : ServerHandshake}
    (hpre : ∀ g ∈ pre, (∀ w ∈ g, NoAlert w) ∧ g ≠ [] ∧ g.flatten.length ≤ 4096) (hg : (∀ w ∈ g, Tls13.WholeRecord w) ∧ g ≠ [] ∧ g.flatten.length ≤ 4096)
    (h1 : feed env pre.flatten (base env rng) = (.ok (), k1)) (hr1 : k1.state ≠ .ready) (h2 : feed env g k1 = (.ok (), k2)) (hr2 : k2.state = .ready) :
    ∃ s, ServerConnection.accept env rng ⟨pre.map List.flatten ++ g.flatten :: later, [], []⟩ = (.ok s, { k2 with stream := s }) ∧ s.protection = k2.stream.protection ∧
      s.stream.written = out k2.stream ∧ s.buffer = [] ∧ s.stream.incoming = later ∧ s.stream.failures = [] := by
  have o := reads_stop env g later k1 k2 h2 hr1 hr2 hg pre
    (((pre.map List.flatten ++ g.flatten :: later).map List.length).sum + (pre.map List.flatten ++ g.flatten :: later).length + 2) []
    (ServerHandshake.new env (TlsStream.new ⟨pre.map List.flatten ++ g.flatten :: later, [], []⟩) rng) (base env rng) hpre (by simp; omega) ⟨_, rfl, rfl, rfl, rfl, rfl, rfl, rfl⟩ rfl h1
  obtain ⟨h', e1, ⟨s, rfl, hs⟩, e3⟩ := o
  have e1 : doHandshake env (ServerHandshake.new env (TlsStream.new ⟨pre.map List.flatten ++ g.flatten :: later, [], []⟩) rng) = (.ok (), { k2 with stream := s }) := e1
  refine ⟨s, ?_, hs.protection, ?_, e3, hs.pending', hs.calm'⟩
  · unfold ServerConnection.accept doHandshakeWithError
    rw [e1]
  · have := hs.output
    unfold out at this
    rw [show s.buffer = [] from e3, List.append_nil] at this
    exact this

/-- Before the client's Finished the handshake is not complete. -/
theorem server_pending {env : ServerEnv} {reads : List Bytes} {x : Params} {ch sh ccs chRec : Bytes} {rng : Rng} {context : Option Bytes} {flight auth records : List Bytes}
    (hu : env.config.prngType = .urandom) (hcl : env.config.cert.raw.length + 200 ≤ 2 ^ 24) (hrec : Tls13.IsRecord 22#8 ch chRec) (hl : ch.length ≤ 4096)
    (ha : HelloAnsweredBy env reads x ch sh ccs rng) (hd : Drawn env rng context) (hf : ServerFlight env x context flight)
    (hau : ClientAuth env x context (x.hellos ++ flight.flatten) auth)
    (hr : Tls13.ProtectedFlight (aead x.c) (x.sess.key .client) (x.sess.iv .client) 0 auth records) :
    ∃ k, feed env (chRec :: records) (base env reads) = (.ok (), k) ∧ k.state ≠ .ready := by
  obtain ⟨v1, v2, hchl, rfl⟩ := hrec
  have hraw := RecProof.fromRaw_header .handshake v1 v2 ch [] hchl
  rw [List.append_nil] at hraw
  rw [RecProof.beBytes2]
  obtain ⟨record, hrecord⟩ : ∃ record : Record, record = ⟨.handshake, v1.toNat * 256 + v2.toNat, ch.length,
    [RecordType.handshake.code, v1, v2, BitVec.ofNat 8 (ch.length / 256), BitVec.ofNat 8 ch.length], ch⟩ := ⟨_, rfl⟩
  rw [← hrecord] at hraw
  have hfrag : record.fraqment = ch := by rw [hrecord]
  have hb : (base env reads).rng = .urandom reads := by
    show (match env.config.prngType with
      | .simple => Rng.simple 0
      | .urandom => Rng.urandom reads) = _
    rw [hu]
  obtain ⟨swire, p, k0, a1, hx, a3, a4, a5, a6, a7, a8, a9, a10, a11, a12, a13, a14⟩ := hello_of (h := base env reads) (record := record)
    (by rw [hfrag]; exact ha) hd hf hb hcl rfl (by rw [hfrag]; exact hl) rfl rfl
  have hh : handleRecord env record (base env reads) = (.ok (), k0) := by
    unfold handleRecord
    rw [Step.bind_get, hrecord]
    simp only []
    have : (base env reads).state = .clientHello := rfl
    rw [this]
    simp only []
    rw [if_neg (by decide), ← hrecord]
    exact a1
  have hout : FlowProof.out k0.stream = Tls13.plainRecord 22#8 sh ++ ccs ++ swire := a7
  have h14 : k0.tshashClienthelloServerfinished = none := a14
  obtain ⟨ws, hi, hpl⟩ := plain_of hr
  have hbeg : Begun k0 := by
    unfold Begun
    rw [a10]
    split_ifs <;> decide
  obtain ⟨T, hT⟩ : ∃ T, T = x.hellos ++ flight.flatten := ⟨_, rfl⟩
  rw [← hT] at hau a11
  have hTl : T.length < 2 ^ 27 := by rw [hT, List.length_append]; omega
  obtain ⟨k, hk, hdone⟩ : ∃ k, feed env ws k0 = (.ok (), k) ∧ k.state ≠ .ready := by
    unfold ClientAuth at hau
    cases hca : env.config.clientCertCa with
    | none =>
      rw [hca] at hau a10
      subst hau
      have hws : ws = [] := hpl
      subst hws
      exact ⟨k0, rfl, by rw [a10]; decide⟩
    | some ca =>
      rw [hca] at hau a10
      have a10 : k0.state = .clientCertificate := a10
      obtain ⟨m1, m2, cert, rfl, hpr, hpo⟩ := hau
      obtain ⟨request, cv, hreq, _⟩ := hf
      unfold Requested at hreq
      rw [hca] at hreq
      obtain ⟨c, hc32, rfl, _⟩ := hreq
      obtain ⟨w1, ws1, rfl, hw1, w2, ws2, rfl, hw2, hws⟩ := hpl
      have hws : ws2 = [] := hws
      subst hws
      have l1 : m1.length < 2 ^ 16 := by obtain ⟨_, _, _, hh, _⟩ := hw1; omega
      have l2 : m2.length < 2 ^ 16 := by obtain ⟨_, _, _, hh, _⟩ := hw2; omega
      have hncond : ∀ h : ServerHandshake, h.certificateRequestContext = some c → ¬ (env.config.clientCertCa.isSome ∧ h.certificateRequestContext.isNone) := by
        intro h he hh
        rw [he] at hh
        simp at hh
      obtain ⟨r1, p1, b1, b2, b3⟩ := encrypted_of (env := env) hx a8 a9 (by omega) hw1 a10 (by decide) (by decide) (hncond _ a13)
      simp only [] at b3
      rw [certificate_of (h := { k0 with stream := k0.stream.setProtection (some p1) }) a11 a13 hc32 hpr] at b3
      obtain ⟨k1, hk1⟩ : ∃ k1 : ServerHandshake, k1 = { k0 with
        stream := k0.stream.setProtection (some p1), tshash := some (ts x.t (T ++ m1)), tshashClienthelloServerfinished := some (ts x.t T)
        clientCert := some cert, state := .clientCertificateVerify } := ⟨_, rfl⟩
      have b3 : handleRecord env r1 k0 = (.ok (), k1) := by rw [hk1]; exact b3
      have hk1s : k1.state = .clientCertificateVerify := by rw [hk1]
      obtain ⟨r2, p2, c1, c2, c3⟩ := encrypted_of (env := env) hx (h := k1) (by rw [hk1]; rfl) b2 (by omega) hw2 hk1s (by decide) (by decide)
        (hncond _ (by rw [hk1]; exact a13))
      simp only [] at c3
      rw [certificateVerify_of (x := x) (m := T ++ m1) (cert := cert) (h := { k1 with stream := k1.stream.setProtection (some p2) }) (by rw [hk1]) (by rw [hk1]) l2 hpo] at c3
      obtain ⟨k2, hk2⟩ : ∃ k2 : ServerHandshake, k2 = { k1 with
        stream := k1.stream.setProtection (some p2), tshash := some (ts x.t (T ++ m1 ++ m2)), state := .clientFinished } := ⟨_, rfl⟩
      have c3 : handleRecord env r2 k1 = (.ok (), k2) := by rw [hk2]; exact c3
      refine ⟨k2, ?_, by rw [hk2]; simp⟩
      rw [feed_of b1 b3, feed_of c1 c3]
      rfl
  refine ⟨k, ?_, hdone⟩
  refine (feed_of hraw hh).trans ?_
  rw [feed_ccs env hi k0 hbeg]
  exact hk

end ATLS.ServerProof

namespace ATLS.EarlyProof
open ATLS ATLS.Model ATLS.Spec FlowProof RecProof KsProof

/-- A protected record for a key of the right size is a whole record of type application_data. -/
theorem protected_whole {cs : CipherSuite} {c : Cipher} (hc : cs.getCipher = .ok c) {k : Key} (hk : KeyOk cs k) {seq : Nat} {t : Byte} {m w : Bytes}
    (h : Tls13.Protected (aead c) k.key k.iv seq t m w) : ∃ b, Tls13.IsRecord 23#8 b w := by
  obtain ⟨ct, tag, n, hl, rfl, he⟩ := h
  obtain ⟨ct', tag', g1, g2, g3, _⟩ := C15_aead_round_trip cs c hc k.key (Tls13.nonce k.iv seq) (m ++ [t] ++ zeros n)
    (Tls13.protectedHeader (m.length + 1 + n)) (suiteKeys hk _) (by simp [Tls13.protectedHeader, beBytes_length]; omega)
  unfold aead at he
  rw [g1] at he
  obtain ⟨rfl, rfl⟩ := Prod.mk.inj (Option.some.inj he)
  have hcl : (ct' ++ tag').length = m.length + 1 + n + 16 := by
    rw [List.length_append, g2, g3]
    simp
    omega
  refine ⟨ct' ++ tag', 3#8, 3#8, by omega, ?_⟩
  rw [hcl]
  simp [Tls13.protectedHeader]

theorem data_whole {cs : CipherSuite} {c : Cipher} (hc : cs.getCipher = .ok c) {k : Key} (hk : KeyOk cs k) : ∀ {seq : Nat} {payloads data : List Bytes},
    Tls13.AppData (aead c) k.key k.iv seq payloads data → ∀ w ∈ data, NoAlert w
  | _, [], _, h, w, hw => by
    rw [Tls13.AppData] at h
    rw [h] at hw
    cases hw
  | seq, m :: ms, _, ⟨v, rest, rfl, h1, h2⟩, w, hw => by
    rcases List.mem_cons.1 hw with rfl | hw
    · obtain ⟨b, hb⟩ := protected_whole hc hk h1
      exact ⟨23#8, b, by decide, hb⟩
    · exact data_whole hc hk h2 w hw

/-- Application data of at most 2^14 bytes a record can be protected. -/
theorem data_exists {cs : CipherSuite} {c : Cipher} (hc : cs.getCipher = .ok c) {k : Key} (hk : KeyOk cs k) : ∀ (seq : Nat) (payloads : List Bytes),
    (∀ m ∈ payloads, m.length ≤ 2 ^ 14) → ∃ data, Tls13.AppData (aead c) k.key k.iv seq payloads data ∧ List.Forall₂ (fun w m => w.length = m.length + 22) data payloads
  | _, [], _ => ⟨[], rfl, .nil⟩
  | seq, m :: ms, h => by
    obtain ⟨data, h1, h2⟩ := data_exists hc hk (seq + 1) ms (fun x hx => h x (List.mem_cons_of_mem _ hx))
    have hm := h m List.mem_cons_self
    obtain ⟨ct, tag, g1, g2, g3, _⟩ := C15_aead_round_trip cs c hc k.key (Tls13.nonce k.iv seq) (m ++ [23#8] ++ zeros 0)
      (Tls13.protectedHeader (m.length + 1 + 0)) (suiteKeys hk _) (by simp [Tls13.protectedHeader, beBytes_length]; omega)
    refine ⟨(Tls13.protectedHeader (m.length + 1 + 0) ++ ct ++ tag) :: data, ⟨_, _, rfl, ⟨ct, tag, 0, by omega, rfl, ?_⟩, h1⟩, .cons ?_ h2⟩
    · unfold aead
      rw [g1]
    · simp [g2, g3, Tls13.protectedHeader, beBytes_length]
      omega

end ATLS.EarlyProof

namespace ATLS.ServerProof
open ATLS ATLS.Model ATLS.Spec FlowProof RecProof

/-- The handshake reads up to the read that contains the client's Finished and leaves the later reads alone. -/
theorem stops {env : ServerEnv} {reads : List Bytes} {r : Exchange} {rng : Rng} {context : Option Bytes} {auth : List Bytes} {rest fin : Bytes} {init : List Bytes}
    (hu : env.config.prngType = .urandom) (hcl : env.config.cert.raw.length + 200 ≤ 2 ^ 24)
    (hc : Conforming env reads r rng context auth rest (init ++ [fin])) (hfin : ¬ ∃ c, Tls13.IsRecord 20#8 c fin)
    {pre : List (List Bytes)} {g tail : List Bytes} (later : List Bytes) (hsplit : pre.flatten ++ g = r.chRec :: init) (hpre : ∀ g ∈ pre, g ≠ [] ∧ g.flatten.length ≤ 4096)
    (hg : (g ++ fin :: tail).flatten.length ≤ 4096) (htail : ∀ w ∈ tail, NoAlert w) :
    ∃ s h p swire, ServerConnection.accept env reads ⟨pre.map List.flatten ++ (g ++ fin :: tail).flatten :: later, [], []⟩ = (.ok s, h) ∧
      Tls13.Sent (aead r.x.c) (r.x.sess.key .server) (r.x.sess.iv .server) 0 r.flight swire ∧
      s.stream.written = Tls13.plainRecord 22#8 r.sh ++ r.ccs ++ swire ∧ s.stream.incoming = later ∧ s.stream.failures = [] ∧ s.protection = some p ∧ p.cipher = r.x.c ∧ p.isClient = false ∧
      wKey p = r.x.appKey r.transcript .server ∧ rKey p = r.x.appKey r.transcript .client ∧ r.x.Ok := by
  have hin : r.chRec.length ≤ 4096 := by
    cases pre with
    | nil =>
      rw [List.flatten_nil, List.nil_append] at hsplit
      rw [hsplit] at hg
      simp at hg
      omega
    | cons a l =>
      obtain ⟨h1, h2⟩ := hpre a List.mem_cons_self
      cases a with
      | nil => exact absurd rfl h1
      | cons v vs =>
        have : v = r.chRec := by simpa using (List.cons.inj hsplit).1
        rw [this] at h2
        simp at h2
        omega
  have hl : r.ch.length ≤ 4096 := by
    obtain ⟨v1, v2, _, he⟩ := hc.hello
    rw [he] at hin
    simp only [List.length_append] at hin
    omega
  obtain ⟨k, swire, hx, hlen, h1, h2, h3, _⟩ := server_feed hu hcl hc.hello hl hc.answered hc.drawn hc.flight hc.proof hc.records htail
  have hall : ∀ w ∈ r.chRec :: (init ++ [fin]), NoAlert w := by
    intro w hw
    rcases List.mem_cons.1 hw with rfl | hw
    · exact ⟨22#8, r.ch, by decide, hc.hello⟩
    · obtain ⟨t, c, ht, hr⟩ := flight_whole hx hc.records (by simp; omega) w hw
      exact ⟨t, c, by rcases ht with rfl | rfl <;> decide, hr⟩
  obtain ⟨k0, p1, p2⟩ := server_pending hu hcl hc.hello hl hc.answered hc.drawn hc.flight hc.proof (EarlyProof.not_ccs_last hc.records _ _ _ _ rfl rfl hfin).1
  rw [← hsplit, feed_append] at p1
  obtain ⟨_, k1, e1, p1⟩ := Step.bind_ok.1 p1
  have hr1 : k1.state ≠ .ready := by
    intro hr
    have := feed_tail env g k1 hr (fun w hw => hall w (by
      have : w ∈ r.chRec :: init := by rw [← hsplit]; simp [hw]
      simp only [List.mem_cons, List.mem_append] at this ⊢
      tauto))
    rw [this] at p1
    obtain rfl := (Prod.mk.inj p1).2
    exact p2 hr
  have hsplit' : r.chRec :: (init ++ [fin] ++ tail) = pre.flatten ++ (g ++ fin :: tail) := by
    rw [← List.append_assoc, hsplit]
    simp
  rw [hsplit', feed_append] at h1
  obtain ⟨_, k1', e1', h1⟩ := Step.bind_ok.1 h1
  rw [e1] at e1'
  obtain rfl := (Prod.mk.inj e1').2
  have hpm : ∀ w, w ∈ pre.flatten ∨ w ∈ g → NoAlert w := fun w hw => hall w (by
    have : w ∈ r.chRec :: init := by rw [← hsplit]; simpa using hw
    simp only [List.mem_cons, List.mem_append] at this ⊢
    tauto)
  obtain ⟨s, g1, g2, g3, g4, g5, g6⟩ := accept_stop env reads (pre := pre) (g := g ++ fin :: tail) (later := later)
    (fun a ha => ⟨fun w hw => hpm w (.inl (List.mem_flatten.2 ⟨a, ha, hw⟩)), hpre a ha⟩)
    ⟨fun w hw => by
      rcases List.mem_append.1 hw with hw | hw
      · exact (hpm w (.inr hw)).whole
      · rcases List.mem_cons.1 hw with rfl | hw
        · exact (hall w (by simp)).whole
        · exact (htail w hw).whole, by simp, hg⟩ e1 hr1 h1 h3.state
  obtain ⟨p, q1, q2, q3, q4, q5⟩ := h3.prot
  exact ⟨s, _, p, swire, g1, h2, g3.trans h3.out, g5, g6, by rw [g2]; exact q1, q2, q5, q3, q4, hx⟩

end ATLS.ServerProof
