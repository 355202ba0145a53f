import Verif.Props.ClientRefused
/-
C106: whoever is refused learns the reason.
-/
namespace ATLS
open ATLS.Model ATLS.Spec FlowProof

/-- The body of a CertificateVerify message that proves nothing about the certificate `c`, and `e` says why: the signature cannot be read (`Signature::from_der`
returns `e`), the key of the certificate did not make it, or it has not the stated length (`BadCertificate`). -/
def SignatureRefused (c : Certificate) (role : Tls13.Role) (t : TsHash) (body : Bytes) (e : TlsError) : Prop :=
  4 ≤ body.length ∧ body.take 2 = [0x04#8, 0x03#8] ∧ (Signature.fromDer (body.drop 4) = .err e ∨
    e = .badCertificate ∧ ∃ sig size, Signature.fromDer (body.drop 4) = .ok (sig, size) ∧
      (c.isCertificateValid sig t (roleLabel role) = .ok false ∨
        c.isCertificateValid sig t (roleLabel role) = .ok true ∧ toU16 ((body.drop 2).take 2) ≠ size))

open ClientProof in
/-- The messages by which a server fails to authenticate, and why: a Certificate message that cannot be taken (`Certificate::from_hello` returns `e`), or a
certificate and a CertificateVerify message that does not prove possession of its key. `before`: the transcript before them. -/
inductive ServerRefused (env : ClientEnv) (x : Params) (before : Bytes) : List Msg → TlsError → Prop where
  | certificate (b : Bytes) (e : TlsError) : Certificate.fromHello env.now b = .err e → ServerRefused env x before [(.certificate, b)] e
  | signature (b v : Bytes) (cert : Certificate) (e : TlsError) : Certificate.fromHello env.now b = .ok [cert] →
      SignatureRefused cert .server (ts x.t (before ++ Msg.raw (.certificate, b))) v e →
      ServerRefused env x before [(.certificate, b), (.certificateVerify, v)] e

namespace ClientProof
open ClientHandshake RecProof

theorem certificate_refused {env : ClientEnv} {t : HashType} {h : ClientHandshake} {m b : Bytes} {e : TlsError}
    (hs : h.state = .clientCertificateRequest ∨ h.state = .serverCertificate) (ht : h.tshash = some (ts t m))
    (hc : Certificate.fromHello env.now b = .err e) :
    handleMessage env (Msg.hs (.certificate, b)) h = (.ok (), { h with
      tshash := some (ts t (m ++ Msg.raw (.certificate, b))), state := .finishWithError e }) := by
  have key : handleServerCertificate env (Msg.hs (.certificate, b)) h = (.ok (), { h with
      tshash := some (ts t (m ++ Msg.raw (.certificate, b))), state := .finishWithError e }) := by
    unfold handleServerCertificate
    rw [if_neg (by simp [Msg.hs])]
    refine (Step.bind_of_ok (update_of ht _)).trans ?_
    have hc' : Certificate.fromHello env.now (Msg.hs (.certificate, b)).fraqment = .err e := hc
    rw [hc', ts_update]
    rfl
  rw [← key]
  unfold handleMessage
  rw [Step.bind_get]
  rcases hs with hs | hs
  · rw [hs]
    simp only []
    rw [if_neg (by simp [Msg.hs])]
  · rw [hs]
    simp only []
    rw [if_neg (by simp [Msg.hs])]

theorem signature_refused {env : ClientEnv} {t : HashType} {h : ClientHandshake} {m b : Bytes} {cert : Certificate} {e : TlsError}
    (hs : h.state = .serverCertificateVerify) (ht : h.tshash = some (ts t m)) (hc : h.serverCert = some cert)
    (hv : SignatureRefused cert .server (ts t m) b e) :
    ∃ m', m'.length ≤ m.length + b.length + 4 ∧ handleMessage env (Msg.hs (.certificateVerify, b)) h = (.ok (), { h with
      tshash := some (ts t m'), state := .finishWithError e }) := by
  obtain ⟨hl, e2, hwhy⟩ := hv
  have hh : handleMessage env (Msg.hs (.certificateVerify, b)) h = handleServerCertificateVerify (Msg.hs (.certificateVerify, b)) h := by
    unfold handleMessage
    rw [Step.bind_get, hs]
  rw [hh]
  unfold handleServerCertificateVerify
  rw [Step.bind_get, hc]
  simp only []
  have e2' : (slice (Msg.hs (.certificateVerify, b)).fraqment 0 2 : Res TlsError Bytes) = .ok [0x04#8, 0x03#8] := by
    show slice b 0 2 = _
    unfold slice
    rw [if_pos ⟨by omega, by omega⟩]
    simp [e2]
  have e4' : (slice (Msg.hs (.certificateVerify, b)).fraqment 2 4 : Res TlsError Bytes) = .ok ((b.drop 2).take 2) := by
    show slice b 2 4 = _
    unfold slice
    rw [if_pos ⟨by omega, by omega⟩]
  have hsf : (sliceFrom (Msg.hs (.certificateVerify, b)).fraqment 4 : Res TlsError Bytes) = .ok (b.drop 4) := by
    unfold sliceFrom
    rw [if_pos]
    · rfl
    exact hl
  rw [if_neg (by simp [Msg.hs]), Step.bind_lift_ok e2', Step.bind_lift_ok (a := .ecdsaSecp256r1Sha256) (by decide), if_neg (by simp), Step.bind_lift_ok hsf]
  rcases hwhy with h1 | ⟨rfl, sig, size, h1, h2 | ⟨h2, h3⟩⟩
  · refine ⟨m, by omega, ?_⟩
    rw [h1, ← ht, ← hc]
    rfl
  · refine ⟨m, by omega, ?_⟩
    rw [h1]
    simp only []
    refine (Step.bind_of_ok (tshash_of ht)).trans ?_
    refine (Step.bind_lift_ok (a := false) h2 _ _).trans ?_
    rw [if_pos (by simp), ← ht, ← hc]
    rfl
  · refine ⟨m ++ Msg.raw (.certificateVerify, b), by rw [List.length_append, Msg.raw_length]; simp only []; omega, ?_⟩
    rw [h1]
    simp only []
    refine (Step.bind_of_ok (tshash_of ht)).trans ?_
    refine (Step.bind_lift_ok (a := true) h2 _ _).trans ?_
    rw [if_neg (by simp)]
    refine (Step.bind_of_ok (update_of ht _)).trans ?_
    refine (Step.bind_lift_ok e4' _ _).trans ?_
    rw [if_pos h3, ts_update, ← hc]
    rfl

/-- In the state after a refusal, another message than Finished is passed over. -/
theorem passed_over {env : ClientEnv} {h : ClientHandshake} {m : Msg} {e : TlsError} (hs : h.state = .finishWithError e) (hm : m.1 ≠ .finished) :
    handleMessage env m.hs h = (.ok (), h) := by
  unfold handleMessage
  rw [Step.bind_get, hs]
  simp only []
  unfold handleServerFinish
  rw [Step.bind_get, if_pos (show m.hs.handshakeType ≠ _ from hm), hs]
  rfl

/-- And a Finished message ends the handshake with the error. -/
theorem told_why {env : ClientEnv} {x : Params} {h : ClientHandshake} {p : RecordPayloadProtection} {nr : Nat} {b m : Bytes} {e : TlsError}
    (hs : h.state = .finishWithError e) (hp : h.stream.protection = some p) (hk : HsProt x true p 0 nr) (ht : h.tshash = some (ts x.t m)) (hm : m.length < 2 ^ 53) :
    handleMessage env (Msg.hs (.finished, b)) h = (.err e, h) := by
  have hks : p.keySchedule.serverHandshakeTrafficSecret = ⟨x.t, x.sess.secret .server⟩ := by rw [hk.ks]; rfl
  have hv := verify_data x .server m hm
  rw [← hks] at hv
  unfold handleMessage
  rw [Step.bind_get, hs]
  simp only []
  unfold handleServerFinish
  rw [Step.bind_get, if_neg (by simp [Msg.hs])]
  refine (Step.bind_of_ok (protection_of hp)).trans ?_
  refine (Step.bind_of_ok (tshash_of ht)).trans ?_
  refine (Step.bind_lift_ok hv _ _).trans ?_
  rw [hs]
  rfl

/-- The messages `rem` of a server that will be refused with `e` are still to come. -/
def Doomed (env : ClientEnv) (x : Params) (ee : Bytes) (requests : List Bytes) (e : TlsError) (nr : Nat) (rem : List Msg) (h : ClientHandshake) : Prop :=
  ∃ p, h.stream.protection = some p ∧ HsProt x true p 0 nr ∧ ∃ bad more fin, (∀ m ∈ more, m.1 ≠ HandshakeType.finished) ∧
    ((h.state = .encryptedExtensions ∧ h.tshash = some (ts x.t x.hellos) ∧ ServerRefused env x (x.hellos ++ opening ee requests) bad e ∧
      rem = (.encryptedExtensions, ee) :: (requests.map (fun b => ((.certificateRequest, b) : Msg)) ++ (bad ++ more ++ [(.finished, fin)]))) ∨
    (∃ done todo, requests = done ++ todo ∧ (h.state = .clientCertificateRequest ∨ h.state = .serverCertificate) ∧
      h.tshash = some (ts x.t (x.hellos ++ opening ee done)) ∧ ServerRefused env x (x.hellos ++ opening ee requests) bad e ∧
      rem = todo.map (fun b => ((.certificateRequest, b) : Msg)) ++ (bad ++ more ++ [(.finished, fin)])) ∨
    (∃ v cert m, h.state = .serverCertificateVerify ∧ h.tshash = some (ts x.t m) ∧ m.length + v.length < 2 ^ 52 ∧ h.serverCert = some cert ∧
      SignatureRefused cert .server (ts x.t m) v e ∧ rem = (.certificateVerify, v) :: (more ++ [(.finished, fin)])) ∨
    (∃ m, h.state = .finishWithError e ∧ h.tshash = some (ts x.t m) ∧ m.length < 2 ^ 53 ∧ rem = more ++ [(.finished, fin)]))

theorem Doomed.state {env : ClientEnv} {x : Params} {ee : Bytes} {requests : List Bytes} {e : TlsError} {nr : Nat} {rem : List Msg} {h : ClientHandshake}
    (hp : Doomed env x ee requests e nr rem h) : h.state ≠ .serverHello ∧ h.state ≠ .ready ∧ rem ≠ [] := by
  obtain ⟨_, _, _, _, _, _, _, ⟨h, _, _, r⟩ | ⟨_, _, _, h | h, _, _, r⟩ | ⟨_, _, _, h, _, _, _, _, r⟩ | ⟨_, h, _, _, r⟩⟩ := hp <;> rw [h, r] <;> simp

theorem doomed_step {env : ClientEnv} {x : Params} {ee : Bytes} {requests : List Bytes} {e : TlsError} {nr : Nat} {m : Msg} {rem : List Msg} {h : ClientHandshake}
    (hl : (x.hellos ++ opening ee requests).length < 2 ^ 50) (hrem : ((m :: rem).map Msg.raw).flatten.length < 2 ^ 50)
    (hp : Doomed env x ee requests e nr (m :: rem) h) :
    (∃ h', handleMessage env m.hs h = (.ok (), h') ∧ Doomed env x ee requests e nr rem h') ∨ (rem = [] ∧ handleMessage env m.hs h = (.err e, h)) := by
  obtain ⟨p, h1, h2, bad, more, fin, hmore, hh⟩ := hp
  rcases hh with ⟨q1, q2, q3, q4⟩ | ⟨done, todo, q1, q2, q3, q4, q5⟩ | ⟨v, cert, t, q1, q2, q3, q4, q5, q6⟩ | ⟨t, q1, q2, q3, q4⟩
  · obtain ⟨rfl, rfl⟩ := List.cons.inj q4
    refine .inl ⟨_, extensions_of q1 q2, p, h1, h2, bad, more, fin, hmore, .inr (.inl ⟨[], requests, rfl, .inl rfl, ?_, q3, rfl⟩)⟩
    simp [opening, Msg.raw, HandshakeType.code]
  · cases todo with
    | cons b todo =>
      rw [List.map_cons, List.cons_append] at q5
      obtain ⟨rfl, rfl⟩ := List.cons.inj q5
      refine .inl ⟨_, request_of q2 q3, p, h1, h2, bad, more, fin, hmore, .inr (.inl ⟨done ++ [b], todo, by rw [q1]; simp, .inr rfl, ?_, q4, rfl⟩)⟩
      rw [List.append_assoc, show Msg.raw (.certificateRequest, b) = Tls13.handshakeMessage 13#8 b from rfl, opening_snoc]
    | nil =>
      rw [List.append_nil] at q1
      subst q1
      rw [List.map_nil, List.nil_append] at q5
      rw [q5] at hrem
      cases q4 with
      | certificate b _ hb =>
        obtain ⟨rfl, rfl⟩ := List.cons.inj q5
        refine .inl ⟨_, certificate_refused q2 q3 hb, p, h1, h2, [], more, fin, hmore, .inr (.inr (.inr ⟨_, rfl, rfl, ?_, rfl⟩))⟩
        simp only [List.cons_append, List.nil_append, List.map_cons, List.flatten_cons, List.length_append] at hrem hl ⊢
        omega
      | signature b v cert _ hb hv =>
        obtain ⟨rfl, rfl⟩ := List.cons.inj q5
        refine .inl ⟨_, certificate_of q2 q3 hb, p, h1, h2, [], more, fin, hmore, .inr (.inr (.inl ⟨v, cert, _, rfl, rfl, ?_, rfl, hv, rfl⟩))⟩
        simp only [List.cons_append, List.nil_append, List.map_cons, List.flatten_cons, List.length_append] at hrem hl ⊢
        rw [Msg.raw_length (.certificateVerify, v)] at hrem
        simp only [] at hrem
        omega
  · obtain ⟨rfl, rfl⟩ := List.cons.inj q6
    obtain ⟨m', g1, g2⟩ := signature_refused (env := env) q1 q2 q4 q5
    exact .inl ⟨_, g2, p, h1, h2, [], more, fin, hmore, .inr (.inr (.inr ⟨m', rfl, rfl, by omega, rfl⟩))⟩
  · cases more with
    | nil =>
      obtain ⟨rfl, rfl⟩ := List.cons.inj q4
      exact .inr ⟨rfl, told_why q1 h1 h2 q2 q3⟩
    | cons a more =>
      obtain ⟨rfl, rfl⟩ := List.cons.inj q4
      exact .inl ⟨h, passed_over q1 (hmore _ (by simp)), p, h1, h2, [], more, fin, fun m hm => hmore m (by simp [hm]), .inr (.inr (.inr ⟨t, q1, q2, q3, rfl⟩))⟩

theorem doomed_told {env : ClientEnv} {x : Params} {ee : Bytes} {requests : List Bytes} {e : TlsError} {nr : Nat} (hl : (x.hellos ++ opening ee requests).length < 2 ^ 50) :
    ∀ (g rem : List Msg) (h : ClientHandshake), ((g ++ rem).map Msg.raw).flatten.length < 2 ^ 50 → Doomed env x ee requests e nr (g ++ rem) h →
    (∃ h', told env g h = (.ok (), h') ∧ Doomed env x ee requests e nr rem h') ∨ (rem = [] ∧ ∃ h', told env g h = (.err e, h'))
  | [], rem, h, _, hp => .inl ⟨h, rfl, hp⟩
  | m :: g, rem, h, hr, hp => by
    rcases doomed_step hl hr hp with ⟨h1, e1, hq⟩ | ⟨hn, e1⟩
    · rcases doomed_told hl g rem h1 (by
          rw [List.cons_append, List.map_cons, List.flatten_cons, List.length_append] at hr
          omega) hq with ⟨h', e2, hh⟩ | ⟨hn, h', e2⟩
      · exact .inl ⟨h', (Step.bind_of_ok e1).trans e2, hh⟩
      · exact .inr ⟨hn, h', (Step.bind_of_ok e1).trans e2⟩
    · exact .inr ⟨(List.append_eq_nil_iff.1 hn).2, h, Step.bind_of_err e1⟩

theorem doomed_feed {env : ClientEnv} {x : Params} (hx : x.Ok) {ee : Bytes} {requests : List Bytes} {e : TlsError} (hl : (x.hellos ++ opening ee requests).length < 2 ^ 50) :
    ∀ (groups : List (List Msg)) (ws : List Bytes) (nr : Nat) (h : ClientHandshake), (groups.flatten.map Msg.raw).flatten.length < 2 ^ 50 → nr + groups.length < 2 ^ 63 →
    FlowProof.Plain (aead x.c) (x.sess.key .server) (x.sess.iv .server) nr (groups.map fun g => (g.map Msg.raw).flatten) ws → Doomed env x ee requests e nr groups.flatten h →
    ∃ h', feed env ws h = (.err e, h')
  | [], ws, nr, h, _, _, _, hp => absurd rfl hp.state.2.2
  | g :: groups, ws, nr, h, hr, hn, hpl, hp => by
    rw [List.length_cons] at hn
    obtain ⟨v, rest, rfl, hv, hpl⟩ := hpl
    obtain ⟨hs1, hs2, _⟩ := hp.state
    obtain ⟨p, h1, h2, hh⟩ := hp
    obtain ⟨r, p', e1, e2, e3⟩ := encrypted_of (env := env) hx h1 h2 (by omega) hv hs1 hs2
    have hp' : Doomed env x ee requests e (nr + 1) (g ++ groups.flatten) { h with stream := h.stream.setProtection (some p') } := ⟨p', rfl, e2, hh⟩
    rcases doomed_told hl g groups.flatten _ hr hp' with ⟨k, e4, hk⟩ | ⟨_, k, e4⟩
    · rw [e4] at e3
      obtain ⟨h', f1⟩ := doomed_feed hx hl groups rest (nr + 1) k (by
        rw [List.flatten_cons, List.map_append, List.flatten_append, List.length_append] at hr
        omega) (by omega) hpl hk
      exact ⟨h', (feed_of e1 e3).trans f1⟩
    · rw [e4] at e3
      refine ⟨k, ?_⟩
      rw [feed, Step.bind_lift_ok e1]
      exact Step.bind_of_err e3

end ClientProof

/-- A server that does everything as a conforming one, but fails to authenticate, for the reason `e`. Its messages after its hello: EncryptedExtensions,
certificate requests, those that fail (`bad`), others, and a Finished message, whatever is in it. -/
structure RefusedServer (env : ClientEnv) (reads : List Bytes) (n : Int) (x : Params) (ch sh shRec ee : Bytes) (requests : List Bytes) (bad more : List ClientProof.Msg)
    (fin : Bytes) (e : TlsError) (records : List Bytes) : Prop where
  offered : Offered env reads n ch
  hello : Tls13.IsRecord 22#8 sh shRec
  answered : ServerAnswered x n ch sh
  refused : ServerRefused env x (x.hellos ++ opening ee requests) bad e
  others : ∀ m ∈ more, m.1 ≠ HandshakeType.finished
  flight : ∃ contents, Tls13.Coalesced ([Tls13.handshakeMessage 8#8 ee] ++ requests.map (Tls13.handshakeMessage 13#8) ++ bad.map ClientProof.Msg.raw ++
      more.map ClientProof.Msg.raw ++ [Tls13.handshakeMessage 20#8 fin]) contents ∧
    Tls13.ProtectedFlight (aead x.c) (x.sess.key .server) (x.sess.iv .server) 0 contents records
  short : (x.hellos ++ opening ee requests ++ (bad.map ClientProof.Msg.raw).flatten ++ (more.map ClientProof.Msg.raw).flatten ++ fin).length < 2 ^ 49

namespace ClientProof
open ClientHandshake RecProof

theorem flight_short {ee : Bytes} {requests : List Bytes} {bad more : List Msg} {fin : Bytes} :
    ((((.encryptedExtensions, ee) : Msg) :: (requests.map (fun b => ((.certificateRequest, b) : Msg)) ++ (bad ++ more ++ [(.finished, fin)]))).map Msg.raw).flatten =
      opening ee requests ++ (bad.map Msg.raw).flatten ++ (more.map Msg.raw).flatten ++ Msg.raw (.finished, fin) := by
  simp only [List.map_cons, List.map_append, List.map_map, List.flatten_cons, List.flatten_append, List.map_nil, List.flatten_nil, List.append_nil]
  unfold opening
  simp only [List.append_assoc]
  rfl

/-- A client offers only one thing. -/
theorem offered_same {env : ClientEnv} {reads : List Bytes} {n n' : Int} {ch ch' : Bytes} (h : Offered env reads n ch) (h' : Offered env reads n' ch') : n = n' ∧ ch = ch' := by
  obtain ⟨g, rng1, r1, hb, hs⟩ := hello_of h
  obtain ⟨g', rng2, r2, hb', hs'⟩ := hello_of h'
  rw [hb] at hb'
  obtain ⟨rfl, rfl⟩ := Prod.mk.inj (Res.ok.inj hb')
  rw [hs] at hs'
  have := congrArg ClientHandshake.clientHelloBytes (Prod.mk.inj hs').2
  exact ⟨rfl, Option.some.inj this⟩

/-- A server that fails to authenticate: the handshake ends with the reason. -/
theorem refused_own {env : ClientEnv} {reads : List Bytes} {n : Int} {x : Params} {ch sh shRec ee : Bytes} {requests : List Bytes} {bad more : List Msg}
    {fin : Bytes} {e : TlsError} {records incoming : List Bytes} (hr : RefusedServer env reads n x ch sh shRec ee requests bad more fin e records)
    (he : ¬ NotAnswered e) (hd : Tls13.Pieces 2048 [] (shRec :: records) incoming) : ClientOwnError env reads incoming e := by
  refine ⟨he, ?_⟩
  obtain ⟨g, rng', random, hb, hsend⟩ := hello_of hr.offered
  obtain ⟨k0, hk0⟩ : ∃ k0 : ClientHandshake, k0 = { first n g with
        rng := rng', clientHelloRandom := some random, clientHelloBytes := some ch
        stream := { TlsStream.new ⟨[], [], []⟩ with stream := ⟨[], [], Tls13.plainRecord 22#8 ch⟩ } } := ⟨_, rfl⟩
  rw [← hk0] at hsend
  have hst : k0.state = .serverHello := by rw [hk0]; rfl
  have hshort := hr.short
  obtain ⟨contents, ⟨gs, hg1, hg3, hg2⟩, hpf⟩ := hr.flight
  obtain ⟨v1, v2, hshl, hsr⟩ := id hr.hello
  have hraw := RecProof.fromRaw_header .handshake v1 v2 sh [] hshl
  rw [List.append_nil] at hraw
  rw [RecProof.beBytes2] at hsr
  obtain ⟨record, hrecord⟩ : ∃ record : Record, record = ⟨.handshake, v1.toNat * 256 + v2.toNat, sh.length,
    [RecordType.handshake.code, v1, v2, BitVec.ofNat 8 (sh.length / 256), BitVec.ofNat 8 sh.length], sh⟩ := ⟨_, rfl⟩
  rw [← hrecord] at hraw
  have hfrag : record.fraqment = sh := by rw [hrecord]
  obtain ⟨p, kl, lg, e1, hx, hprot⟩ := serverHello_of (env := env) (h := k0) (record := record) (random := random) (by rw [hfrag]; exact hr.answered) (by rw [hk0]) (by rw [hk0])
    (by simp only [List.length_append] at hshort; omega) (by rw [hk0]; rfl)
  obtain ⟨k1, hk1⟩ : ∃ k1 : ClientHandshake, k1 = { k0 with
        stream := k0.stream.setProtection (some p), tshash := some (ts x.t x.hellos), state := .encryptedExtensions, keylog := kl, logged := lg } := ⟨_, rfl⟩
  rw [← hk1] at e1
  have hh : handleRecord env record k0 = (.ok (), k1) := by
    unfold handleRecord
    rw [Step.bind_get, hst, hrecord]
    simp only []
    rw [if_neg (by decide), ← hrecord]
    exact e1
  obtain ⟨ms, hms⟩ : ∃ ms : List Msg, ms = (.encryptedExtensions, ee) :: (requests.map (fun b => ((.certificateRequest, b) : Msg)) ++ (bad ++ more ++ [(.finished, fin)])) := ⟨_, rfl⟩
  have hg1' : gs.flatten = ms.map Msg.raw := by
    rw [hg1, hms]
    simp only [List.map_cons, List.map_append, List.map_map, List.map_nil, List.append_assoc, List.cons_append, List.nil_append]
    rfl
  obtain ⟨groups, hgr1, hgr2⟩ := groups_of hg1'
  have hlen : (ms.map Msg.raw).flatten.length < 2 ^ 50 := by
    rw [hms, flight_short]
    simp only [List.length_append, Msg.raw_length] at hshort ⊢
    omega
  have hgl : groups.length < 2 ^ 60 := by
    have h1 := groups_le groups (by
      intro g' hg' he'
      refine hg2 _ (by rw [hgr2]; exact List.mem_map.2 ⟨g', hg', rfl⟩) ?_
      rw [he']; rfl)
    have h2 := length_le ms
    rw [hgr1] at h1
    omega
  have hpf' : Tls13.ProtectedFlight (aead x.c) (x.sess.key .server) (x.sess.iv .server) 0 (groups.map fun g => (g.map Msg.raw).flatten) records := by
    have : contents = groups.map fun g => (g.map Msg.raw).flatten := by
      rw [hg3, hgr2, List.map_map]
      rfl
    rw [← this]; exact hpf
  obtain ⟨ws, hi, hpl⟩ := plain_of hpf'
  obtain ⟨k, f1⟩ := doomed_feed (env := env) hx (ee := ee) (requests := requests) (e := e) (by simp only [List.length_append] at hshort ⊢; omega) groups ws 0 k1
    (by rw [hgr1]; exact hlen) (by omega) hpl ⟨p, by rw [hk1]; rfl, hprot, bad, more, fin, hr.others, .inl ⟨by rw [hk1], by rw [hk1], hr.refused, by rw [hgr1, hms]⟩⟩
  have hfeed : feed env (shRec :: records) k0 = (.err e, k) := by
    rw [hsr]
    refine (feed_of hraw hh).trans ?_
    rw [feed_ccs env hi k1 (by unfold Begun; rw [hk1]; simp)]
    exact f1
  have hno : ∀ w ∈ shRec :: records, NoAlert w := by
    intro w hwm
    rcases List.mem_cons.1 hwm with rfl | hwm
    · exact ⟨22#8, sh, by decide, hr.hello⟩
    · obtain ⟨t, c, ht, hr⟩ := flight_whole hx hpf' (by rw [List.length_map]; omega) w hwm
      exact ⟨t, c, by rcases ht with rfl | rfl <;> decide, hr⟩
  have o := run_outcome env hsend (records := shRec :: records) (reads := incoming) (fun w hwm => (hno w hwm).whole) hd
    (fun a v b hab _ _ _ => (hno v (by rw [← hab]; simp)).not_alert)
  rw [hfeed] at o
  obtain ⟨o1, _⟩ := o
  refine ⟨withReads incoming (first n g), (doHandshake env (withReads incoming (first n g))).2, ?_, ?_⟩
  · unfold ClientHandshake.new
    rw [hb]
    rfl
  · exact Prod.ext o1 rfl

end ClientProof

/-- C106, the client: when a server fails to authenticate, `connect` returns the reason, and so does the alert that is the last record sent. -/
theorem C106_client_reason (env : ClientEnv) (reads : List Bytes) (n : Int) (x : Params) (ch sh shRec ee : Bytes) (requests : List Bytes) (bad more : List ClientProof.Msg)
    (fin : Bytes) (e : TlsError) (records incoming : List Bytes) (hr : RefusedServer env reads n x ch sh shRec ee requests bad more fin e records)
    (he : ¬ NotAnswered e) (hd : Tls13.Pieces 2048 [] (shRec :: records) incoming)
    (hkey : ∀ c, env.config.clientCert = some c → ∃ key, env.config.clientKey = some key)
    (hcert : ∀ c, env.config.clientCert = some c → c.raw.length + 400 ≤ 2 ^ 24) (hname : ∀ n, env.config.serverName = some n → n.length < 2 ^ 24)
    (hin : incoming.flatten.length < 2 ^ 24) :
    ∃ h, ClientConnection.connect env reads ⟨incoming, [], []⟩ = (.err e, some h) ∧ GaveUp env n ch incoming.flatten e h.stream.stream.written := by
  obtain ⟨h, n', ch', h1, h2, h3⟩ := C105_client_alert env reads incoming e hkey hcert hname hin (ClientProof.refused_own hr he hd)
  obtain ⟨rfl, rfl⟩ := ClientProof.offered_same hr.offered h2
  exact ⟨h, h1, h3⟩

namespace ServerProof
open ServerHandshake

/-- A CertificateVerify message that proves nothing: the reason is recorded, and the message does not go into the transcript. -/
theorem signature_refused {h : ServerHandshake} {t : HashType} {m b : Bytes} {cert : Certificate} {e : TlsError} (ht : h.tshash = some (ts t m))
    (hc : h.clientCert = some cert) (hbl : b.length < 2 ^ 24) (hv : SignatureRefused cert .client (ts t m) b e) :
    handleClientCertificateVerify (Record.new .handshake (Tls13.handshakeMessage 15#8 b)) h = (.ok (), { h with state := .finishWithError e }) := by
  obtain ⟨hl, e2, hwhy⟩ := hv
  have e1 := fromRaw_message .certificateVerify b [] hbl
  rw [List.append_nil] at e1
  have e1' : Handshake.fromRaw (Record.new .handshake (Tls13.handshakeMessage 15#8 b)).fraqment = _ := e1
  unfold handleClientCertificateVerify
  rw [Step.bind_lift_ok e1', Step.bind_get, hc]
  simp only []
  have e2' : (slice b 0 2 : Res TlsError Bytes) = .ok [0x04#8, 0x03#8] := by
    unfold slice
    rw [if_pos ⟨by omega, by omega⟩]
    simp [e2]
  have e4' : (slice b 2 4 : Res TlsError Bytes) = .ok ((b.drop 2).take 2) := by
    unfold slice
    rw [if_pos ⟨by omega, by omega⟩]
  have hsf : (sliceFrom b 4 : Res TlsError Bytes) = .ok (b.drop 4) := by
    unfold sliceFrom
    rw [if_pos hl]
  rw [if_neg (by simp), Step.bind_lift_ok e2', Step.bind_lift_ok (a := .ecdsaSecp256r1Sha256) (by decide), if_neg (by simp), Step.bind_lift_ok hsf]
  rcases hwhy with h1 | ⟨rfl, sig, size, h1, h2 | ⟨h2, h3⟩⟩
  · rw [h1, ← hc]
    rfl
  · rw [h1]
    simp only []
    refine (Step.bind_of_ok (tshash_of ht)).trans ?_
    refine (Step.bind_lift_ok (a := false) h2 _ _).trans ?_
    rw [if_pos (by simp), ← hc]
    rfl
  · rw [h1]
    simp only []
    refine (Step.bind_of_ok (tshash_of ht)).trans ?_
    refine (Step.bind_lift_ok (a := true) h2 _ _).trans ?_
    rw [if_neg (by simp)]
    refine (Step.bind_lift_ok e4' _ _).trans ?_
    rw [if_pos h3, ← hc]
    rfl

end ServerProof

/-- A client that does everything as a conforming one up to its certificate (the content `cm`), which the server takes, but whose CertificateVerify message
(`body`) proves nothing, because of `e`. `vd`: the verify data of its Finished message. -/
structure ForgingClient (env : ServerEnv) (reads : List Bytes) (r : Exchange) (rng : Rng) (c cm : Bytes) (cert : Certificate) (body : Bytes) (e : TlsError)
    (vd rest : Bytes) (records : List Bytes) : Prop where
  hello : Tls13.IsRecord 22#8 r.ch r.chRec
  answered : HelloAnsweredBy env reads r.x r.ch r.sh r.ccs rng
  drawn : Drawn env rng (some c)
  flight : ServerFlight env r.x (some c) r.flight
  presented : Presented env (some c) cm cert
  refused : SignatureRefused cert .client (ts r.x.t (r.transcript ++ cm)) body e
  records : Tls13.ProtectedFlight (aead r.x.c) (r.x.sess.key .client) (r.x.sess.iv .client) 0
    [cm, Tls13.handshakeMessage 15#8 body, Tls13.handshakeMessage 20#8 vd ++ rest] records

/-- C106, a CertificateVerify message the server refuses: the server leaves it out of the transcript by which it checks the Finished message. So it tells the
reason, as the first record under its application traffic key, only if the client's Finished leaves out the message too; to every other client, and so to
one that follows RFC 8446 (`Tls13.verifyData` of a transcript with the message), it says `DecryptError`, under its handshake traffic key. -/
theorem C106_server_signature (env : ServerEnv) (reads : List Bytes) (r : Exchange) (rng : Rng) (c cm : Bytes) (cert : Certificate) (body : Bytes) (e : TlsError)
    (vd rest : Bytes) (records incoming : List Bytes) (hu : env.config.prngType = .urandom) (hcert : env.config.cert.raw.length + 200 ≤ 2 ^ 24)
    (hc : ForgingClient env reads r rng c cm cert body e vd rest records) (he : ¬ NotAnswered e) (hl : r.chRec.length ≤ 4096)
    (hd : Tls13.Delivers 4096 records incoming) :
    ∃ h swire alert, Tls13.Sent (aead r.x.c) (r.x.sess.key .server) (r.x.sess.iv .server) 0 r.flight swire ∧
      h.stream.stream.written = Tls13.plainRecord 22#8 r.sh ++ r.ccs ++ swire ++ alert ∧
      if Tls13.handshakeMessage 20#8 vd = r.x.sess.finished .client (r.transcript ++ cm) then
        ServerConnection.accept env reads ⟨r.chRec :: incoming, [], []⟩ = (.err e, h) ∧
        Tls13.Protected (aead r.x.c) (r.x.sess.appKey r.transcript .server) (r.x.sess.appIv r.transcript .server) 0 21#8 (alertContent e) alert
      else
        ServerConnection.accept env reads ⟨r.chRec :: incoming, [], []⟩ = (.err .decryptError, h) ∧
        Tls13.Protected (aead r.x.c) (r.x.sess.key .server) (r.x.sess.iv .server) r.flight.length 21#8 (alertContent .decryptError) alert := by
  have hl' : r.ch.length ≤ 4096 := by
    obtain ⟨v1, v2, _, he⟩ := hc.hello
    rw [he] at hl
    simp only [List.length_append] at hl
    omega
  obtain ⟨ca, hs, c', rst, x', hca, _⟩ := id hc.presented
  obtain ⟨swire, p, k0, hx, b1, b2, b3, b4, b5, b6, b7, b8, b9, b10, rec0, b11⟩ := ServerProof.server_begun hu hcert hc.hello hl' hc.answered hc.drawn hc.flight
  have hk0 : k0.state = .clientCertificate := by rw [b6, hca]; rfl
  obtain ⟨request, cv, hreq, _, hfl⟩ := id hc.flight
  have hc32 : c.length = 32 ∧ r.flight.length < 2 ^ 63 := by
    unfold Requested at hreq
    rw [hca] at hreq
    obtain ⟨c', h1, h2, h3⟩ := hreq
    refine ⟨by rw [Option.some.inj h2]; exact h1, ?_⟩
    rw [hfl, h3]
    simp
  obtain ⟨hc32, hfn⟩ := hc32
  obtain ⟨ws, hi, w1, ws1, rfl, hw1, w2, ws2, rfl, hw2, w3, ws3, rfl, hw3, hpl⟩ := plain_of hc.records
  have hpl : ws3 = [] := hpl
  subst hpl
  have l1 : cm.length < 2 ^ 16 := by obtain ⟨_, _, _, hh, _⟩ := hw1; omega
  have l2 : body.length < 2 ^ 16 := by
    obtain ⟨_, _, _, hh, _⟩ := hw2
    simp only [Tls13.handshakeMessage, List.length_append, List.length_cons, List.length_nil, beBytes_length] at hh
    omega
  have l3 : vd.length < 2 ^ 16 := by
    obtain ⟨_, _, _, hh, _⟩ := hw3
    simp only [Tls13.handshakeMessage, List.length_append, List.length_cons, List.length_nil, beBytes_length] at hh
    omega
  have b10 : r.transcript.length < 2 ^ 27 := b10
  have hm : (r.transcript ++ cm).length < 2 ^ 53 := by rw [List.length_append]; omega
  obtain ⟨r1, p1, c1, c2, c3⟩ := ServerProof.encrypted_of (env := env) hx b4 b5 (by omega) hw1 hk0 (by decide) (by decide) (by simp [b8])
  simp only [] at c3
  rw [ServerProof.certificate_of (h := { k0 with stream := k0.stream.setProtection (some p1) }) b7 b8 hc32 hc.presented] at c3
  obtain ⟨k1, hk1⟩ : ∃ k1 : ServerHandshake, k1 = { k0 with
    stream := k0.stream.setProtection (some p1), tshash := some (ts r.x.t (r.x.hellos ++ r.flight.flatten ++ cm)),
    tshashClienthelloServerfinished := some (ts r.x.t (r.x.hellos ++ r.flight.flatten)), clientCert := some cert, state := .clientCertificateVerify } := ⟨_, rfl⟩
  have c3 : ServerHandshake.handleRecord env r1 k0 = (.ok (), k1) := by rw [hk1]; exact c3
  obtain ⟨r2, p2, d1, d2, d3⟩ := ServerProof.encrypted_of (env := env) hx (h := k1) (by rw [hk1]; rfl) c2 (by omega) hw2 (st := .clientCertificateVerify) (by rw [hk1]) (by decide) (by decide)
    (by rw [hk1]; simp [b8])
  simp only [] at d3
  rw [ServerProof.signature_refused (h := { k1 with stream := k1.stream.setProtection (some p2) }) (m := r.transcript ++ cm) (cert := cert) (by rw [hk1]; rfl) (by rw [hk1]) (by omega) hc.refused] at d3
  obtain ⟨k2, hk2⟩ : ∃ k2 : ServerHandshake, k2 = { k1 with stream := k1.stream.setProtection (some p2), state := .finishWithError e } := ⟨_, rfl⟩
  have d3 : ServerHandshake.handleRecord env r2 k1 = (.ok (), k2) := by rw [hk2]; exact d3
  obtain ⟨r3, p3, f1, f2, f3⟩ := ServerProof.encrypted_of (env := env) hx (h := k2) (by rw [hk2]; rfl) d2 (by omega) hw3 (st := .finishWithError e) (by rw [hk2]) (by simp) (by simp)
    (by rw [hk2, hk1]; simp [b8])
  simp only [] at f3
  have hall : ∀ w ∈ records, NoAlert w := by
    intro w hw
    obtain ⟨t, c, ht, hr⟩ := flight_whole hx hc.records (by simp) w hw
    exact ⟨t, c, by rcases ht with rfl | rfl <;> decide, hr⟩
  have hfeed : ∀ {e' : TlsError} {k : ServerHandshake}, ServerHandshake.handleClientFinish (Record.new .handshake (Tls13.handshakeMessage 20#8 vd ++ rest))
      { k2 with stream := k2.stream.setProtection (some p3) } = (.err e', k) → ServerProof.feed env records k0 = (.err e', k) := by
    intro e' k hk
    rw [hk] at f3
    rw [ServerProof.feed_ccs env hi k0 (by unfold ServerProof.Begun; rw [hk0]; decide), ServerProof.feed_of c1 c3, ServerProof.feed_of d1 d3, ServerProof.feed, Step.bind_lift_ok f1]
    exact Step.bind_of_err f3
  by_cases hv : Tls13.handshakeMessage 20#8 vd = r.x.sess.finished .client (r.transcript ++ cm)
  · obtain ⟨k, p', g1, g2, g3, g4⟩ := ServerProof.denied_of hx (h := { k2 with stream := k2.stream.setProtection (some p3) }) (m0 := r.transcript) (m := r.transcript ++ cm) (rest := rest)
      (e := e) (by rw [hk2]) rfl f2 (by rw [hk2, hk1]; rfl) (by rw [hk2, hk1]; rfl) (by omega) hm
    rw [← hv] at g1
    obtain ⟨h, a, q1, q2, q3⟩ := ServerProof.accept_alert env reads (Q := fun a => Tls13.Protected (aead r.x.c) (r.x.sess.appKey r.transcript .server) (r.x.sess.appIv r.transcript .server) 0 21#8
        (alertContent e) a) ⟨22#8, r.ch, by decide, hc.hello⟩ hl hall hd b2 (hfeed g1) (by rw [g2, hk2, hk1]; rfl) he (by
      intro s hs hf
      rw [g2] at hs
      obtain ⟨a, s', f1, f2, f3⟩ := AlertProof.alert_sealed (cs := r.x.cs) (e := e) (seq := 0) hs (by rw [g4]; exact hx.cipher) (by rw [g3]; exact EarlyProof.appKey_sizes _ _ _) (by rw [g3]; rfl) (by omega) hf
      rw [g3, g4] at f3
      exact ⟨a, s', f1, f2, f3⟩)
    refine ⟨h, swire, a, b1, by rw [q2, b3], ?_⟩
    rw [if_pos hv]
    exact ⟨q1, q3⟩
  · have g1 := ServerProof.wrong_of (x := r.x) (h := { k2 with stream := k2.stream.setProtection (some p3) }) (m := r.transcript ++ cm) (vd := vd) (rest := rest) rfl f2 (by rw [hk2, hk1]; rfl) hm
      (by omega) (by
        intro h
        apply hv
        rw [h]
        rfl)
    obtain ⟨h, a, q1, q2, q3⟩ := ServerProof.accept_alert env reads (Q := fun a => Tls13.Protected (aead r.x.c) (r.x.sess.key .server) (r.x.sess.iv .server) r.flight.length 21#8
        (alertContent .decryptError) a) ⟨22#8, r.ch, by decide, hc.hello⟩ hl hall hd b2 (hfeed g1) (by rw [hk2, hk1]; rfl) (by simp [NotAnswered]) (by
      intro s hs hf
      obtain ⟨a, s', g1, g2, g3⟩ := AlertProof.alert_sealed (cs := r.x.cs) (e := .decryptError) (seq := r.flight.length) hs (by rw [f2.cipher]; exact hx.cipher)
        (by rw [f2.w]; exact hsKey_sizes _ _ _) (by rw [f2.w]; rfl) hfn hf
      rw [f2.w, f2.cipher] at g3
      exact ⟨a, s', g1, g2, g3⟩)
    refine ⟨h, swire, a, b1, by rw [q2, b3], ?_⟩
    rw [if_neg hv]
    exact ⟨q1, q3⟩

/-- C106 for a server that refuses the CertificateVerify message of a client, which goes on with the Finished message of RFC 8446. -/
def C106_signature : Prop :=
  ∀ (env : ServerEnv) (reads : List Bytes) (r : Exchange) (rng : Rng) (c cm : Bytes) (cert : Certificate) (body : Bytes) (e : TlsError) (vd rest : Bytes)
    (records incoming : List Bytes), env.config.prngType = .urandom → env.config.cert.raw.length + 200 ≤ 2 ^ 24 →
    ForgingClient env reads r rng c cm cert body e vd rest records → ¬ NotAnswered e → r.chRec.length ≤ 4096 → Tls13.Delivers 4096 records incoming →
    Tls13.handshakeMessage 20#8 vd = r.x.sess.finished .client (r.transcript ++ cm ++ Tls13.handshakeMessage 15#8 body) →
    ∃ h, ServerConnection.accept env reads ⟨r.chRec :: incoming, [], []⟩ = (.err e, h)

/-- C106 for a server that refuses the certificate of a client. -/
def C106_certificate : Prop :=
  ∀ (env : ServerEnv) (reads : List Bytes) (r : Exchange) (rng : Rng) (c m : Bytes) (e : TlsError) (more : List Bytes) (rest : Bytes) (records incoming : List Bytes),
    env.config.prngType = .urandom → env.config.cert.raw.length + 200 ≤ 2 ^ 24 → RefusedClient env reads r rng c m e more rest records → ¬ NotAnswered e →
    r.chRec.length ≤ 4096 → Tls13.Delivers 4096 records incoming → ∃ h, ServerConnection.accept env reads ⟨r.chRec :: incoming, [], []⟩ = (.err e, h)

/-- C106 for the client. -/
def C106_client : Prop :=
  ∀ (env : ClientEnv) (reads : List Bytes) (n : Int) (x : Params) (ch sh shRec ee : Bytes) (requests : List Bytes) (bad more : List ClientProof.Msg)
    (fin : Bytes) (e : TlsError) (records incoming : List Bytes), RefusedServer env reads n x ch sh shRec ee requests bad more fin e records → ¬ NotAnswered e →
    Tls13.Pieces 2048 [] (shRec :: records) incoming → (∀ c, env.config.clientCert = some c → ∃ key, env.config.clientKey = some key) →
    (∀ c, env.config.clientCert = some c → c.raw.length + 400 ≤ 2 ^ 24) → (∀ n, env.config.serverName = some n → n.length < 2 ^ 24) →
    incoming.flatten.length < 2 ^ 24 → ∃ h, ClientConnection.connect env reads ⟨incoming, [], []⟩ = (.err e, some h)

/-- C106: whoever ends a handshake because the peer failed to authenticate reports why (the alert it sends is the one for the error it reports, C104 and C105). -/
def C106_statement : Prop := C106_client ∧ C106_certificate ∧ C106_signature

/-- C106 without the server's answer to a CertificateVerify message (missing: `C106_signature`, see `C106_server_signature`). -/
theorem C106_reason_partial : C106_client ∧ C106_certificate := by
  refine ⟨?_, ?_⟩
  · intro env reads n x ch sh shRec ee requests bad more fin e records incoming hr he hd hkey hcert hname hin
    obtain ⟨h, h1, _⟩ := C106_client_reason env reads n x ch sh shRec ee requests bad more fin e records incoming hr he hd hkey hcert hname hin
    exact ⟨h, h1⟩
  · intro env reads r rng c m e more rest records incoming hu hcert hc he hl hd
    obtain ⟨h, _, _, h1, _⟩ := C104_server_refuses env reads r rng c m e more rest records incoming hu hcert hc he hl hd
    exact ⟨h, h1⟩

/-- What is missing does not hold, short of a coincidence: it would make the verify data of RFC 8446's Finished message the same with and without the
CertificateVerify message, for every client that sends such a one. -/
theorem C106_coincidence (hst : C106_statement) (env : ServerEnv) (reads : List Bytes) (r : Exchange) (rng : Rng) (c cm : Bytes) (cert : Certificate) (body : Bytes)
    (e : TlsError) (vd rest : Bytes) (records incoming : List Bytes) (hu : env.config.prngType = .urandom) (hcert : env.config.cert.raw.length + 200 ≤ 2 ^ 24)
    (hc : ForgingClient env reads r rng c cm cert body e vd rest records) (he : ¬ NotAnswered e) (hl : r.chRec.length ≤ 4096) (hd : Tls13.Delivers 4096 records incoming)
    (hne : e ≠ .decryptError) (hvd : Tls13.handshakeMessage 20#8 vd = r.x.sess.finished .client (r.transcript ++ cm ++ Tls13.handshakeMessage 15#8 body)) :
    r.x.sess.finished .client (r.transcript ++ cm ++ Tls13.handshakeMessage 15#8 body) = r.x.sess.finished .client (r.transcript ++ cm) := by
  obtain ⟨h, h1⟩ := hst.2.2 env reads r rng c cm cert body e vd rest records incoming hu hcert hc he hl hd hvd
  obtain ⟨h', swire, alert, _, _, h2⟩ := C106_server_signature env reads r rng c cm cert body e vd rest records incoming hu hcert hc he hl hd
  rw [← hvd]
  by_contra hn
  rw [if_neg hn, h1] at h2
  exact hne (Res.err.inj (Prod.mk.inj h2.1).1)

end ATLS
