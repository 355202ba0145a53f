import Verif.Props.Forbidden
/-
C119: forbidden change_cipher_spec records, the client's side.
-/
namespace ATLS
open ATLS.Model ATLS.Spec ATLS.RecProof FlowProof RfcProof

/-- A client whose certificate comes with a key, and whose certificate and server name have a sensible size. -/
structure Sized (env : ClientEnv) : Prop where
  key : ∀ c, env.config.clientCert = some c → ∃ key, env.config.clientKey = some key
  cert : ∀ c, env.config.clientCert = some c → c.raw.length + 400 ≤ 2 ^ 24
  name : ∀ n, env.config.serverName = some n → n.length < 2 ^ 24

/-- C119, before the ServerHello: a change_cipher_spec record, whatever its value and whatever records follow, ends the handshake with unexpected_message, and that
is what the server is told, in the clear. -/
def C119_first_statement : Prop :=
  ∀ (env : ClientEnv) (reads : List Bytes) (n : Int) (ch content w : Bytes) (more incoming : List Bytes), Sized env → Offered env reads n ch →
    Tls13.IsRecord 20#8 content w → (∀ v ∈ more, NoAlert v) → Tls13.Pieces 2048 [] (w :: more) incoming → incoming.flatten.length < 2 ^ 24 →
    ∃ h, ClientConnection.connect env reads ⟨incoming, [], []⟩ = (.err .unexpectedMessage, some h) ∧
      h.stream.stream.written = Tls13.plainRecord 22#8 ch ++ Tls13.plainRecord 21#8 [2#8, 10#8]

/-- C119, protected: a change_cipher_spec record under the server's handshake key as the first record after the ServerHello ends the handshake with
unexpected_message, and that is what the server is told, in a record that it can open. -/
def C119_protected_statement : Prop :=
  ∀ (env : ClientEnv) (reads : List Bytes) (n : Int) (x : Params) (ch sh shRec content w : Bytes) (more incoming : List Bytes), Sized env → Offered env reads n ch →
    Tls13.IsRecord 22#8 sh shRec → ServerAnswered x n ch sh → x.hellos.length < 2 ^ 53 →
    Tls13.Protected (aead x.c) (x.sess.key .server) (x.sess.iv .server) 0 20#8 content w → (∀ v ∈ w :: more, NoAlert v) →
    Tls13.Pieces 2048 [] (shRec :: w :: more) incoming → incoming.flatten.length < 2 ^ 24 →
    ∃ h, ClientConnection.connect env reads ⟨incoming, [], []⟩ = (.err .unexpectedMessage, some h) ∧
      GaveUp env n ch incoming.flatten .unexpectedMessage h.stream.stream.written

/-- C119, after the ServerHello: no handshake completes in which the record after the ServerHello is a change_cipher_spec record with a wrong value. -/
def C119_value_statement : Prop :=
  ∀ (env : ClientEnv) (reads : List Bytes) (sh shRec w : Bytes) (more incoming : List Bytes), Tls13.IsRecord 22#8 sh shRec → Tls13.WrongCcs w →
    Tls13.Pieces 2048 [] (shRec :: w :: more) incoming → ∀ s h, ClientConnection.connect env reads ⟨incoming, [], []⟩ ≠ (.ok s, h)

/-- C119 in full. -/
def C119_statement : Prop := C119_first_statement ∧ C119_protected_statement ∧ C119_value_statement

namespace ClientProof
open ClientHandshake

/-- The client's handshake fails with what handling the records one by one fails with. -/
theorem own_of_feed {env : ClientEnv} {reads : List Bytes} {n : Int} {g : Rng} {k0 k : ClientHandshake} {e : TlsError} {records incoming : List Bytes}
    (hb : ((Rng.urandom reads).between 1 32 : Res TlsError (Int × Rng)) = .ok (n, g)) (hsend : sendClientHello env (first n g) = (.ok (), k0))
    (he : ¬ NotAnswered e) (hno : ∀ w ∈ records, NoAlert w) (hd : Tls13.Pieces 2048 [] records incoming) (hf : feed env records k0 = (.err e, k)) :
    ClientOwnError env reads incoming e := by
  have o := run_outcome env hsend (records := records) (reads := incoming) (fun w hwm => (hno w hwm).whole) hd
    (fun a v b hab _ _ _ => (hno v (by rw [← hab]; simp)).not_alert)
  rw [hf] at o
  obtain ⟨o1, _⟩ := o
  refine ⟨he, withReads incoming (first n g), (doHandshake env (withReads incoming (first n g))).2, ?_, Prod.ext o1 rfl⟩
  unfold ClientHandshake.new
  rw [hb]
  rfl

end ClientProof
open ClientProof ClientHandshake

theorem C119_first_partial : C119_first_statement := by
  intro env reads n ch content w more incoming hs ho hw hmore hd hin
  obtain ⟨g, rng', random, hb, hsend⟩ := hello_of ho
  obtain ⟨k0, hk0⟩ : ∃ k0 : ClientHandshake, k0 = { first n g with
        rng := rng', clientHelloRandom := some random, clientHelloBytes := some ch
        stream := { TlsStream.new ⟨[], [], []⟩ with stream := ⟨[], [], Tls13.plainRecord 22#8 ch⟩ } } := ⟨_, rfl⟩
  rw [← hk0] at hsend
  have hst : k0.state = .serverHello := by rw [hk0]; rfl
  obtain ⟨v1, v2, hcl, hwe⟩ := id hw
  have hraw := RecProof.fromRaw_header .changeCipherSpec v1 v2 content [] hcl
  rw [List.append_nil] at hraw
  rw [RecProof.beBytes2] at hwe
  have hraw' : ∃ m r, Record.fromRaw w = .ok (m, r) ∧ r.contentType = .changeCipherSpec := by
    rw [hwe]
    exact ⟨_, _, hraw, rfl⟩
  obtain ⟨m, r, hr1, hr2⟩ := hraw'
  have hfeed : feed env (w :: more) k0 = (.err .unexpectedMessage, k0) := by
    rw [feed, Step.bind_lift_ok hr1]
    refine Step.bind_of_err ?_
    unfold handleRecord
    rw [Step.bind_get, hr2]
    simp only []
    rw [if_pos hst]
    rfl
  have hno : ∀ v ∈ w :: more, NoAlert v := by
    intro v hv
    rcases List.mem_cons.1 hv with rfl | hv
    · exact ⟨20#8, content, by decide, hw⟩
    · exact hmore v hv
  obtain ⟨h, n', ch', h1, h2, h3⟩ := C105_client_alert env reads incoming .unexpectedMessage hs.key hs.cert hs.name hin
    (own_of_feed hb hsend (by unfold NotAnswered; simp) hno hd hfeed)
  obtain ⟨rfl, rfl⟩ := offered_same ho h2
  refine ⟨h, h1, ?_⟩
  have hnot : ¬ ∃ x, HelloAccepted n ch incoming.flatten x := by
    rintro ⟨x, sh, w', ⟨u1, u2, _, rfl⟩, ⟨t, ht⟩, _⟩
    have hb := hd.bytes
    rw [List.nil_append, ← ht, hwe] at hb
    have := congrArg List.head? hb
    simp at this
  generalize h.stream.stream.written = sent at h3 ⊢
  cases h3 with
  | plain _ => rfl
  | handshake x a hx _ => exact absurd ⟨x, hx⟩ hnot
  | finished x _ _ _ _ _ _ hx _ _ _ _ => exact absurd ⟨x, hx⟩ hnot

theorem C119_protected_partial : C119_protected_statement := by
  intro env reads n x ch sh shRec content w more incoming hs ho hrec ha hl hw hmore hd hin
  obtain ⟨g, rng', random, hb, hsend⟩ := hello_of ho
  obtain ⟨k0, hk0⟩ : ∃ k0 : ClientHandshake, k0 = { first n g with
        rng := rng', clientHelloRandom := some random, clientHelloBytes := some ch
        stream := { TlsStream.new ⟨[], [], []⟩ with stream := ⟨[], [], Tls13.plainRecord 22#8 ch⟩ } } := ⟨_, rfl⟩
  rw [← hk0] at hsend
  have hst : k0.state = .serverHello := by rw [hk0]; rfl
  obtain ⟨v1, v2, hshl, he⟩ := id hrec
  have hraw := RecProof.fromRaw_header .handshake v1 v2 sh [] hshl
  rw [List.append_nil] at hraw
  rw [RecProof.beBytes2] at he
  obtain ⟨record, hrecord⟩ : ∃ record : Record, record = ⟨.handshake, v1.toNat * 256 + v2.toNat, sh.length,
    [RecordType.handshake.code, v1, v2, BitVec.ofNat 8 (sh.length / 256), BitVec.ofNat 8 sh.length], sh⟩ := ⟨_, rfl⟩
  rw [← hrecord] at hraw
  have hfrag : record.fraqment = sh := by rw [hrecord]
  obtain ⟨p, kl, lg, e1, hx, hprot⟩ := serverHello_of (env := env) (h := k0) (record := record) (random := random) (by rw [hfrag]; exact ha) (by rw [hk0]) (by rw [hk0])
    hl (by rw [hk0]; rfl)
  obtain ⟨k1, hk1⟩ : ∃ k1 : ClientHandshake, k1 = { k0 with
        stream := k0.stream.setProtection (some p), tshash := some (ts x.t x.hellos), state := .encryptedExtensions, keylog := kl, logged := lg } := ⟨_, rfl⟩
  rw [← hk1] at e1
  have hh : handleRecord env record k0 = (.ok (), k1) := by
    unfold handleRecord
    rw [Step.bind_get, hst, hrecord]
    simp only []
    rw [if_neg (by decide), ← hrecord]
    exact e1
  obtain ⟨rec, p', r1, r2, r3, _⟩ := opens hx hprot (by omega) (t := .changeCipherSpec) (by decide) hw
  have hd1 : decryptRecord rec k1 = (.ok (.changeCipherSpec, content), { k1 with stream := k1.stream.setProtection (some p') }) := by
    unfold decryptRecord
    have : getProtection k1 = (.ok p, k1) := by
      unfold getProtection
      rw [hk1]
      rfl
    refine (Step.bind_of_ok this).trans ?_
    rw [r3]
  have hh2 : handleRecord env rec k1 = (.err .unexpectedMessage, { k1 with stream := k1.stream.setProtection (some p') }) := by
    have he2 : handleEncryptedRecord env rec k1 = (.err .unexpectedMessage, { k1 with stream := k1.stream.setProtection (some p') }) := by
      unfold handleEncryptedRecord
      refine (Step.bind_of_ok hd1).trans ?_
      rfl
    rw [← he2]
    have hs1 : k1.state = .encryptedExtensions := by rw [hk1]
    unfold handleRecord
    rw [Step.bind_get, r2, hs1]
  have hfeed : feed env (shRec :: w :: more) k0 = (.err .unexpectedMessage, { k1 with stream := k1.stream.setProtection (some p') }) := by
    rw [he]
    refine (feed_of hraw hh).trans ?_
    rw [feed, Step.bind_lift_ok r1]
    exact Step.bind_of_err hh2
  have hno : ∀ v ∈ shRec :: w :: more, NoAlert v := by
    intro v hv
    rcases List.mem_cons.1 hv with rfl | hv
    · exact ⟨22#8, sh, by decide, hrec⟩
    · exact hmore v hv
  obtain ⟨h, n', ch', h1, h2, h3⟩ := C105_client_alert env reads incoming .unexpectedMessage hs.key hs.cert hs.name hin
    (own_of_feed hb hsend (by unfold NotAnswered; simp) hno hd hfeed)
  obtain ⟨rfl, rfl⟩ := offered_same ho h2
  exact ⟨h, h1, h3⟩

/-- What the client does instead with a wrong value: nothing. Any server that it completes the handshake with may send it such a record after its ServerHello. -/
theorem C119_ignored (env : ClientEnv) (reads : List Bytes) (n : Int) (x : Params) (ch sh shRec messages content w : Bytes) (auth records incoming : List Bytes)
    (hown : ∀ c, env.config.clientCert = some c → c.raw.length + 400 ≤ 2 ^ 24) (hc : ConformingServer env reads n x ch sh shRec messages auth records)
    (hw : Tls13.IsRecord 20#8 content w) (hd : Tls13.Pieces 2048 [] (shRec :: w :: records) incoming) :
    ∃ s h, ClientConnection.connect env reads ⟨incoming, [], []⟩ = (.ok s, h) := by
  obtain ⟨ee, requests, cm, cv, cert, contents, f1, f2, f3, f4, f5, f6, f7⟩ := hc.flight
  obtain ⟨s, h, _, _, h1, _⟩ := C76_client_completes env reads n x ch sh shRec messages auth (w :: records) [] incoming hown
    { hc with flight := ⟨ee, requests, cm, cv, cert, contents, f1, f2, f3, f4, f5, .ccs _ _ _ _ _ hw f6, f7⟩ } (by simp) (by simpa using hd)
  exact ⟨s, h, h1⟩

theorem C119_false : ¬ C119_statement := by
  rintro ⟨_, _, H⟩
  obtain ⟨_, ca, kc, ks, q, r, rng, auth, ws, cws, R⟩ := PairProof.example_runs
  have hcl : (Spec.X509.certificate ownTbs ownR ownS).length ≤ 1800 := by decide +kernel
  have hw : Tls13.IsRecord 20#8 [2#8] (Tls13.plainRecord 20#8 [2#8]) := ⟨3#8, 3#8, by decide, by decide⟩
  have hd := (Tls13.delivers_single (cap := 2048) (records := Tls13.plainRecord 22#8 r.sh :: Tls13.plainRecord 20#8 [2#8] :: r.ccs :: ws) fun v hv => by
      rcases List.mem_cons.1 hv with rfl | hv
      · exact R.fromServer hcl _ (by simp)
      · rcases List.mem_cons.1 hv with rfl | hv
        · decide
        · exact R.fromServer hcl _ (by simp only [List.mem_cons] at hv ⊢; exact .inr hv)).pieces
  obtain ⟨s, h, hs⟩ := C119_ignored _ _ _ _ _ _ _ _ [2#8] _ auth _ _ (by
    intro c hc
    obtain rfl := Option.some.inj hc
    show (Spec.X509.certificate ownTbs ownR ownS).length + 400 ≤ 2 ^ 24
    decide +kernel) R.server hw hd
  exact H _ _ r.sh _ _ _ _ R.server.hello ⟨[2#8], by decide, hw⟩ hd s h hs

/-- The hypotheses of `C119_first_partial` and of `C119_protected_partial` are met by the example client with its certificate: it gets a change_cipher_spec record with
the right value at once, or protected after the ServerHello of the example server. -/
example : ∃ (env : ClientEnv) (reads : List Bytes) (n : Int) (x : Params) (ch sh shRec w : Bytes), Sized env ∧ Offered env reads n ch ∧
    Tls13.IsRecord 20#8 [1#8] (Tls13.plainRecord 20#8 [1#8]) ∧ Tls13.Pieces 2048 [] [Tls13.plainRecord 20#8 [1#8]] [Tls13.plainRecord 20#8 [1#8]] ∧
    Tls13.IsRecord 22#8 sh shRec ∧ ServerAnswered x n ch sh ∧ x.hellos.length < 2 ^ 53 ∧
    Tls13.Protected (aead x.c) (x.sess.key .server) (x.sess.iv .server) 0 20#8 [1#8] w ∧ (∀ v ∈ [w], NoAlert v) ∧
    Tls13.Pieces 2048 [] [shRec, w] [shRec, w] ∧ ([shRec, w].flatten).length < 2 ^ 24 := by
  obtain ⟨_, ca, kc, ks, q, r, rng, auth, ws, cws, R⟩ := PairProof.example_runs
  obtain ⟨w, h1, h2⟩ := ReasonProof.protects R.ok .server 0 20#8 [1#8] (by decide)
  have hcl : (Spec.X509.certificate ownTbs ownR ownS).length ≤ 1800 := by decide +kernel
  have hl := R.fromServer hcl (Tls13.plainRecord 22#8 r.sh) (by simp)
  have h2' : w.length ≤ 2048 := by rw [h2]; decide
  refine ⟨_, _, _, r.x, r.ch, r.sh, _, w, ⟨?_, ?_, ?_⟩, R.offered, ⟨3, 3, by decide, by decide⟩, (Tls13.delivers_single (by decide)).pieces, R.server.hello,
    R.server.answered, ?_, h1, ?_, (Tls13.delivers_single (by
      intro v hv
      simp only [List.mem_cons, List.not_mem_nil, or_false] at hv
      rcases hv with rfl | rfl
      · exact hl
      · exact h2')).pieces, by simp only [List.flatten_cons, List.flatten_nil, List.append_nil, List.length_append]; omega⟩
  · intro c hc
    obtain rfl := Option.some.inj hc
    exact ⟨_, rfl⟩
  · intro c hc
    obtain rfl := Option.some.inj hc
    show (Spec.X509.certificate ownTbs ownR ownS).length + 400 ≤ 2 ^ 24
    decide +kernel
  · intro a ha
    obtain rfl := Option.some.inj ha
    decide
  · obtain ⟨_, _, _, _, _, _, _, _, _, _, _, _, hh⟩ := R.server.answered
    have h4 := R.fromClient r.chRec (by simp)
    rw [R.rec_] at h4
    have h5 : ∀ c : Bytes, (Tls13.plainRecord 22#8 c).length = c.length + 5 := by
      intro c
      simp [Tls13.plainRecord, beBytes_length]
      omega
    rw [h5] at h4 hl
    rw [hh, List.length_append]
    omega
  · intro v hv
    rw [List.mem_singleton.1 hv]
    obtain ⟨b, hb⟩ := EarlyProof.protected_whole (k := r.x.hsKey .server 0) R.ok.cipher (hsKey_sizes r.x .server 0) h1
    exact ⟨23#8, b, by decide, hb⟩

end ATLS
