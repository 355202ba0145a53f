import Verif.Props.AgreementExample
/-
C43 in full, and why it does not hold: a client whose certificate the CA let expire.
-/
namespace ATLS
open ATLS.Model ATLS.Spec FlowProof X509Proof PairProof

/-- The Unix time of a date in a certificate. -/
def unixOf (d : Spec.X509.DateTime) : Nat := Time.unix d.year d.month d.day d.hour d.minute d.second

/-- C43 with the certificates satisfying `P`: with a client CA, `accept` only succeeds after RFC 8446's flight with a Finished, a certificate signed by that CA and
approved by the custom function, and possession of its key over the transcript; and when a well-formed to-be-signed part stands where the library checks the CA's
signature, then it says that the certificate is valid now. -/
def C43_for (P : Spec.X509.Tbs → Bytes → Prop) : Prop :=
  ∀ (env : ServerEnv) (reads : List Bytes) (sock : Socket) (s : TlsStream) (h : ServerHandshake) (ca : Certificate),
    env.config.cert.raw.length < 2 ^ 24 → env.config.clientCertCa = some ca → ServerConnection.accept env reads sock = (.ok s, h) →
    (∃ (r : Exchange) (context : Option Bytes) (m1 m2 fin tail raw : Bytes) (x : Model.X509), Accepted env reads sock s r context [m1, m2] fin tail ∧
      CertificateShown env ca context m1 raw x ∧ PossessionShown .client r.x x (r.transcript ++ m1) m2) ∧
    ∀ (r : Exchange) (context : Option Bytes) (m1 m2 fin tail raw : Bytes) (x : Model.X509) (t : Spec.X509.Tbs), Accepted env reads sock s r context [m1, m2] fin tail →
      CertificateShown env ca context m1 raw x → t.WellFormed → (∃ header rest : Bytes, header.length = 4 ∧ raw = header ++ t.encode ++ rest) → P t raw →
      unixOf t.notBefore ≤ env.now ∧ env.now ≤ unixOf t.notAfter

/-- C43 in full. -/
def C43_statement : Prop := C43_for fun _ _ => True

/-- Nothing was added to the certificate, and its start is a date C51 is right about. -/
structure Unchanged (t : Spec.X509.Tbs) (raw : Bytes) : Prop where
  whole : ∃ r s, raw = Spec.X509.certificate t r s
  size : raw.length < 2 ^ 16
  long : 256 ≤ t.body.length
  before : t.notBefore.month ≤ 2 ∨ Time.isLeap t.notBefore.year = false

namespace X509Proof

theorem before_1970 {t : UtcTime} {v : Nat} (h : t.getUnixTimestamp (ε := TlsError) = .ok v) : 1970 ≤ t.year := by
  by_contra hy
  unfold UtcTime.getUnixTimestamp at h
  obtain ⟨a1, e1, h⟩ := Res.bind_eq_ok.1 h
  obtain ⟨a2, e2, h⟩ := Res.bind_eq_ok.1 h
  obtain ⟨a3, e3, h⟩ := Res.bind_eq_ok.1 h
  obtain ⟨a4, e4, h⟩ := Res.bind_eq_ok.1 h
  obtain ⟨a5, e5, h⟩ := Res.bind_eq_ok.1 h
  obtain ⟨a6, e6, h⟩ := Res.bind_eq_ok.1 h
  unfold UtcTime.sub at e6
  rw [if_neg hy] at e6
  cases e6

theorem valid_iff {a b : UtcTime} {now : Nat} (h : Validity.isValid (ε := TlsError) ⟨some a, some b⟩ now = .ok true) :
    ∃ va vb, a.getUnixTimestamp (ε := TlsError) = .ok va ∧ b.getUnixTimestamp (ε := TlsError) = .ok vb ∧ va ≤ now ∧ now ≤ vb := by
  unfold Validity.isValid at h
  simp only [] at h
  obtain ⟨va, ha, h⟩ := Res.bind_eq_ok.1 h
  rw [Res.ok_bind] at h
  by_cases h1 : now < va
  · rw [if_pos (by simpa using h1)] at h; cases h
  rw [if_neg (by simpa using h1)] at h
  obtain ⟨vb, hb, h⟩ := Res.bind_eq_ok.1 h
  rw [Res.ok_bind] at h
  by_cases h2 : now > vb
  · rw [if_pos (by simpa using h2)] at h; cases h
  exact ⟨va, vb, ha, hb, by omega, by omega⟩

/-- What the library's decision means for the certificates in `Unchanged`. -/
theorem unchanged_valid {t : Spec.X509.Tbs} {raw : Bytes} {x : Model.X509} {now : Nat} (hwf : t.WellFormed) (hu : Unchanged t raw) (hx : Model.X509.fromRaw raw = .ok x)
    (hv : (x.validity.isValid now : Res TlsError Bool) = .ok true) : unixOf t.notBefore ≤ now ∧ now ≤ unixOf t.notAfter := by
  obtain ⟨rr, ss, hraw⟩ := hu.whole
  obtain ⟨px, py, hpx, hpy, hk⟩ := hwf.key
  obtain ⟨x5, g1, _, g3, g4, _⟩ := certificate_fields t rr ss px py hwf hpx hpy hk (hraw ▸ hu.size) hu.long
  rw [← hraw, hx] at g1
  obtain rfl := Res.ok.inj g1
  rw [g3] at hv
  obtain ⟨va, vb, ha, hb, h1, h2⟩ := valid_iff hv
  obtain ⟨va', ea, ua⟩ := RfcProof.date_ok (t := utcOf t.notBefore) ⟨before_1970 ha, hwf.notBefore.1⟩
  obtain ⟨vb', eb, ub⟩ := RfcProof.date_ok (t := utcOf t.notAfter) ⟨before_1970 hb, hwf.notAfter.1⟩
  rw [ha] at ea
  rw [hb] at eb
  obtain rfl := Res.ok.inj ea
  obtain rfl := Res.ok.inj eb
  have hn : ¬ (3 ≤ (utcOf t.notBefore).month ∧ Time.isLeap (utcOf t.notBefore).year = true) := by
    rintro ⟨h3, h4⟩
    rcases hu.before with h | h
    · have : 3 ≤ t.notBefore.month := h3
      omega
    · have h4 : Time.isLeap t.notBefore.year = true := h4
      rw [h] at h4
      cases h4
  rw [if_neg hn] at ua
  have e1 : unixOf t.notBefore = va := ua
  have e2 : unixOf t.notAfter = _ := ub
  exact ⟨by rw [e1]; exact h1, by rw [e2]; exact le_trans h2 (Nat.le_add_right _ _)⟩

end X509Proof

/-- C43 for the certificates in `Unchanged`. Missing: certificates with bytes appended by their holder, who can so replace the end of the validity period
(`C43_false`), a start after February of a leap year (C51, C52), and sizes other than those of `Unchanged`. -/
theorem C43_valid_partial : C43_for Unchanged := by
  intro env reads sock s h ca hc hca ha
  refine ⟨C43_client_auth_partial env reads sock s h ca hc hca ha, ?_⟩
  intro r context m1 m2 fin tail raw x t _ hsh hwf _ hu
  obtain ⟨c, n, post, more, _, _, _, hx, hv, _, _⟩ := hsh
  exact unchanged_valid hwf hu hx hv

/-- The hypotheses are met: `C88_example` has a server with a client CA that accepts, and the certificate of the repository is in `Unchanged`. -/
example : Unchanged ownTbs (Spec.X509.certificate ownTbs ownR ownS) ∧ ownTbs.WellFormed ∧
    ∃ header rest : Bytes, header.length = 4 ∧ Spec.X509.certificate ownTbs ownR ownS = header ++ ownTbs.encode ++ rest :=
  ⟨⟨⟨_, _, rfl⟩, by decide +kernel, by decide +kernel, .inr (by decide +kernel)⟩, own_wellFormed,
    (Spec.X509.certificate ownTbs ownR ownS).take 4, (Spec.X509.certificate ownTbs ownR ownS).drop (4 + ownTbs.encode.length), by decide +kernel, by decide +kernel⟩

theorem X509Proof.shown_raw {c n raw post context own : Bytes}
    (hb : beBytes 1 c.length ++ c ++ (n ++ beBytes 3 raw.length ++ raw ++ post) = Tls13.certificateMessage context [(own, [])]) (hc : c.length < 256) (hn : n.length = 3)
    (hcl : context.length < 256) (hr : raw.length < 2 ^ 24) (ho : own.length < 2 ^ 16) : raw = own := by
  simp only [Tls13.certificateMessage, Tls13.certificateEntry, List.map_cons, List.map_nil, List.flatten_cons, List.flatten_nil, List.append_assoc] at hb
  obtain ⟨b1, hb⟩ := List.append_inj hb (by simp [beBytes_length])
  have b1 := congrArg beNat b1
  rw [beNat_beBytes, beNat_beBytes] at b1
  obtain ⟨_, hb⟩ := List.append_inj hb (by omega)
  obtain ⟨_, hb⟩ := List.append_inj hb (by rw [hn, beBytes_length])
  obtain ⟨b2, hb⟩ := List.append_inj hb (by simp [beBytes_length])
  have b2 := congrArg beNat b2
  rw [beNat_beBytes, beNat_beBytes] at b2
  exact (List.append_inj hb (by omega)).1

/-- The client's certificate of the example with a later end of the validity period appended to it. -/
def forgedOwn : Bytes := forged ownTbs ownR ownS ⟨2049, 12, 31, 0, 0, 0⟩ []

/-- The first of June 2030, when the certificate was no longer valid. -/
def june2030 : Nat := 1906502400

/-- What the holder of the example's certificate can make of it: a certificate for the same key, valid until 2049, with further attributes in its subject, still taken to be
signed by the CA. -/
theorem forged_any (now : Nat) (attrs : List Spec.X509.Attribute) (ha : ∀ a ∈ attrs, a.WellFormed) (hfl : (forged ownTbs ownR ownS ⟨2049, 12, 31, 0, 0, 0⟩ attrs).length < 2 ^ 16)
    (hhead : ∃ l1 l2 tail, forged ownTbs ownR ownS ⟨2049, 12, 31, 0, 0, 0⟩ attrs = [0x30#8, 0x82#8, l1, l2] ++ (ownTbs.encode ++ tail))
    (hnow : (Validity.isValid (ε := TlsError) ⟨some (utcOf ownTbs.notBefore), some ⟨2049, 12, 31, 0, 0, 0⟩⟩ now) = .ok true) :
    ∃ ca x, Certificate.fromRawX509 (Spec.X509.certificate ownTbs ownR ownS) = .ok ca ∧ Identity (forged ownTbs ownR ownS ⟨2049, 12, 31, 0, 0, 0⟩ attrs) ownKey now x ∧
    Certificate.hasSigned ca ⟨forged ownTbs ownR ownS ⟨2049, 12, 31, 0, 0, 0⟩ attrs, some x⟩ = .ok () ∧
    ∀ o nm, (o, nm) ∈ Spec.X509.attributeNames → x.subject.get nm = Res.okOr .nameGet (Spec.X509.attributeValue (ownTbs.subject ++ attrs) o) := by
  obtain ⟨c, hc, hs⟩ := own_signed
  obtain ⟨c', x', h1, h2, h3, h4, h5, h6⟩ := C50_forged ownTbs ownR ownS own_wellFormed (by decide +kernel) (by decide +kernel) c c hc hs
    ⟨2049, 12, 31, 0, 0, 0⟩ (by unfold Spec.X509.DateTime.WellFormed Time.InCalendar; decide) attrs ha hfl
  obtain ⟨fo, hfo⟩ : ∃ fo, fo = forged ownTbs ownR ownS ⟨2049, 12, 31, 0, 0, 0⟩ attrs := ⟨_, rfl⟩
  rw [← hfo] at h1 hfl hhead ⊢
  obtain ⟨raw, x5⟩ := c'
  simp only at h2
  subst h2
  have hp : Model.X509.fromRaw fo = .ok x' ∧ raw = fo := by
    unfold Certificate.fromRawX509 at h1
    obtain ⟨x, e, h1⟩ := Res.bind_eq_ok.1 h1
    obtain ⟨rfl, e2⟩ := by simpa using Res.ok.inj h1
    subst e2
    refine ⟨?_, rfl⟩
    revert e
    cases Model.X509.fromRaw fo <;> simp [Res.mapErr]
  obtain ⟨hp, rfl⟩ := hp
  obtain ⟨l1, l2, tail, hraw⟩ := hhead
  obtain ⟨k1, _, k3, k4, _⟩ := C50_signed_fields_partial ownTbs own_wellFormed (by decide +kernel) (by decide +kernel) _ _ (by decide +kernel) (by decide +kernel) rfl l1 l2 tail x' (hraw ▸ hp)
  refine ⟨c, x', hc, ⟨rfl, by decide +kernel, hp, ⟨_, ownKey_public, k4⟩, ?_⟩, h3, h6⟩
  have : x'.validity = ⟨some (utcOf ownTbs.notBefore), some ⟨2049, 12, 31, 0, 0, 0⟩⟩ := by
    cases hv : x'.validity with
    | mk a b =>
      rw [hv] at k3 h5
      simp only at k3 h5
      rw [k3, h5]
      rfl
  rw [this]
  exact hnow

theorem forged_identity : ∃ ca x, Certificate.fromRawX509 (Spec.X509.certificate ownTbs ownR ownS) = .ok ca ∧ Identity forgedOwn ownKey june2030 x ∧
    Certificate.hasSigned ca ⟨forgedOwn, some x⟩ = .ok () := by
  obtain ⟨ca, x, h1, h2, h3, _⟩ := forged_any june2030 [] (by simp) (by decide +kernel)
    ⟨forgedOwn.getD 2 0, forgedOwn.getD 3 0, forgedOwn.drop (4 + ownTbs.encode.length), by decide +kernel⟩ (by decide +kernel)
  exact ⟨ca, x, h1, h2, h3⟩

/-- A server of the example with a client CA and a custom function, and a client with a given certificate and key that the CA seems to have signed: the
handshake completes, and what comes after it is left for the application. -/
theorem shown_run (ca : Certificate) (fo : Bytes) (key : PrivateKey) (now : Nat) (y : Model.X509) (f : Option (Model.X509 → Bool)) (hy : Identity fo key now y)
    (hs : Certificate.hasSigned ca ⟨fo, some y⟩ = .ok ()) (hf : ∀ g, f = some g → g y = true) (hfl : fo.length ≤ 3900) :
    ∃ (se : ServerEnv) (srng inc : List Bytes), se.config.clientCertCa = some ca ∧ se.config.clientCertCustomVerifyFn = f ∧ se.now = now ∧
      se.config.cert.raw.length + 200 ≤ 2 ^ 24 ∧ ∃ (r : Exchange) (context : Option Bytes) (m1 m2 fin : Bytes), ∀ more, ∃ s h, ServerConnection.accept se srng ⟨inc ++ more, [], []⟩ = (.ok s, h) ∧
        Accepted se srng ⟨inc ++ more, [], []⟩ s r context [m1, m2] fin [] ∧ s.stream.incoming = more ∧ s.stream.failures = [] ∧
        ∃ x, CertificateShown se ca context m1 fo x := by
  obtain ⟨x, hx, _⟩ := own_identity
  obtain ⟨q, hq, hq1, hq2⟩ := example_draws (some ca) (some (ascii "anothertls.local"))
  obtain ⟨se, hse⟩ : ∃ se : ServerEnv, se = { exampleServer (some ca) (some (ascii "anothertls.local")) with now := now, config := { (exampleServer (some ca) (some (ascii "anothertls.local"))).config with clientCertCustomVerifyFn := f } } := ⟨_, rfl⟩
  obtain ⟨ce, hce⟩ : ∃ ce : ClientEnv, ce = { exampleClient (some (ascii "anothertls.local")) with
    config := ⟨some (ascii "anothertls.local"), some ⟨fo, none⟩, some key, none⟩ } := ⟨_, rfl⟩
  have hm : Matching ce se := by
    subst hse hce
    exact {
      prng := rfl
      name := fun a b h1 h2 => (Option.some.inj h1).symm.trans (Option.some.inj h2)
      utf8 := fun a h => by
        obtain rfl := Option.some.inj h
        exact ⟨by decide +kernel, by decide +kernel⟩
      size := by
        show (Spec.X509.certificate ownTbs ownR ownS).length ≤ 16000
        decide +kernel
      server := ⟨x, hx⟩
      auth := fun c h => by
        obtain rfl := Option.some.inj h
        exact ⟨_, _, y, rfl, rfl, hy, hfl, hs, hf⟩
      other := fun c h => by
        obtain rfl := Option.some.inj h
        show fo.length + 400 ≤ 2 ^ 24
        omega }
  have hq' : q.From se [zeros 100, zeros 100, zeros 100] [zeros 100, oneRead, zeros 100] := by
    subst hse
    exact ⟨hq.client, hq.server, hq.secret⟩
  obtain ⟨kc, ks, g1, g2, g3⟩ := signed_exists ce se _ _ q hm hq' (hq1 ▸ example_shares.1) (hq2 ▸ example_shares.2)
  obtain ⟨r, rng, auth, ws, cws, R⟩ := runs g1 g2 (hq1 ▸ example_shares.1) (hq2 ▸ example_shares.2) g3
  have hcl0 : se.config.cert.raw.length ≤ 1800 := by
    subst hse
    show (Spec.X509.certificate ownTbs ownR ownS).length ≤ 1800
    decide +kernel
  have hcl : se.config.cert.raw.length + 200 ≤ 2 ^ 24 := by
    subst hse
    show (Spec.X509.certificate ownTbs ownR ownS).length + 200 ≤ 2 ^ 24
    decide +kernel
  have hsca : se.config.clientCertCa = some ca := by subst hse; rfl
  have hcc : ce.config.clientCert = some ⟨fo, none⟩ := by subst hce; rfl
  obtain ⟨s, h, ha, hA, _⟩ := AgreeProof.run_accepted_more R g1.prng hcl0 []
  have hauth := hA.authenticated
  unfold ClientAuth at hauth
  simp only [hsca] at hauth
  obtain ⟨m1, m2, cert, rfl, h2, h3⟩ := hauth
  have hctx : ∀ c, q.contextOf { se with nonces := [ks] } = some c → c.length = 32 := by
    obtain ⟨req, cv, hr, _⟩ := hA.flight
    unfold Requested at hr
    simp only [hsca] at hr
    obtain ⟨c, hl, e, _⟩ := hr
    intro c' hc'
    rw [e] at hc'
    rw [← Option.some.inj hc']
    exact hl
  obtain ⟨ca', x', k1, k2, k3⟩ := ServerProof.presented_shown hctx h2
  have : ca' = ca := by
    have : se.config.clientCertCa = some ca' := k1
    rw [hsca] at this
    exact (Option.some.inj this).symm
  subst this
  have hraw : cert.raw = fo := by
    obtain ⟨c, n, post, more, e1, e2, e3, _⟩ := k3
    obtain ⟨ee, requests, cm, cv, cert', contents, _, _, _, _, _, _, hans, _⟩ := R.server.flight
    cases hreq : requests.getLast? with
    | none =>
      rw [hreq] at hans
      cases hans
    | some body =>
      rw [hreq] at hans
      unfold ClientAnswer at hans
      simp only [hcc] at hans
      obtain ⟨context, _, _, hcl, _, key, sig, cm', der, _, hcm, _, _, e4⟩ := hans
      obtain ⟨rfl, _⟩ := List.cons.inj e4
      rw [e3] at hcm
      have hfl : fo.length < 2 ^ 16 := by omega
      have l1 : (Tls13.certificateMessage context [(fo, [])]).length < 2 ^ 24 := by
        simp only [Tls13.certificateMessage, Tls13.certificateEntry, List.length_append, beBytes_length, List.map_cons, List.map_nil, List.flatten_cons, List.flatten_nil,
          List.append_nil, List.length_nil]
        omega
      have l2 := congrArg List.length hcm
      simp only [Tls13.handshakeMessage, List.length_append, List.length_cons, List.length_nil, beBytes_length] at l2
      have hcm' : _ ++ more = _ ++ [] := hcm.trans (List.append_nil _).symm
      obtain ⟨_, hb, _⟩ := AgreeProof.message_inj hcm' (by simp only [List.length_append, beBytes_length]; omega) l1
      exact shown_raw hb (by rw [hctx c e1]; omega) e2 hcl (by omega) hfl
  rw [hraw] at k3
  refine ⟨{ se with nonces := [ks] }, [zeros 100, oneRead, zeros 100], r.chRec :: cws, hsca, by subst hse; rfl, by subst hse; rfl, hcl, { r with swire := ws.flatten },
    q.contextOf { se with nonces := [ks] }, m1, m2, r.x.sess.finished .client (r.transcript ++ [m1, m2].flatten), fun more => ?_⟩
  obtain ⟨s, h, ha, hA, hi, hfa⟩ := AgreeProof.run_accepted_more R g1.prng hcl0 more
  exact ⟨s, h, ha, hA, hi, hfa, x', k3⟩

/-- C43 does not hold: in 2030 a server with the certificate of the repository, expired in February 2024, as its client CA accepts a client with that certificate and
a later date appended to it. -/
theorem C43_false : ¬ C43_statement := by
  intro H
  obtain ⟨ca, y, hca, hy, hs⟩ := forged_identity
  obtain ⟨se, srng, inc, e1, _, e3, e4, r, context, m1, m2, fin, e5⟩ := shown_run ca forgedOwn ownKey june2030 y none hy hs (fun g hg => by cases hg) (by decide +kernel)
  obtain ⟨s, h, ha, hA, _, _, x, hx⟩ := e5 []
  have h2 := ((H se srng _ s h ca (by omega) e1 ha).2 r context m1 m2 _ _ forgedOwn x ownTbs hA hx own_wellFormed ⟨forgedOwn.take 4, forgedOwn.drop (4 + ownTbs.encode.length),
    by decide +kernel, by decide +kernel⟩ trivial).2
  rw [e3] at h2
  revert h2
  decide +kernel

/-! ### C90: the validity of the server's certificate -/

/-- C90 for the certificates satisfying `P`: `connect` only succeeds when the well-formed to-be-signed part of the server's certificate says that it is valid now. -/
def C90_for (P : Spec.X509.Tbs → Bytes → Prop) : Prop :=
  ∀ (env : ClientEnv) (reads : List Bytes) (sock : Socket) (s : TlsStream) (h : Option ClientHandshake), (∀ c, env.config.clientCert = some c → c.raw.length < 2 ^ 24) →
    (∀ n, env.config.serverName = some n → n.length < 2 ^ 24) → sock.incoming.flatten.length < 2 ^ 24 → ClientConnection.connect env reads sock = (.ok s, h) →
    (∃ r, ClientCompleted env reads sock s r) ∧
    ∀ (r : ClientRun) (cm rest raw : Bytes) (x : Model.X509) (t : Spec.X509.Tbs) (ee : Bytes), ClientCompleted env reads sock s r → r.shown = opening ee r.requests ++ cm ++ rest →
      ServerCertificateShown env cm raw x → t.WellFormed → (∃ header rest : Bytes, header.length = 4 ∧ raw = header ++ t.encode ++ rest) → P t raw →
      unixOf t.notBefore ≤ env.now ∧ env.now ≤ unixOf t.notAfter

/-- C90 in full. -/
def C90_statement : Prop := C90_for fun _ _ => True

/-- C90 for the certificates in `Unchanged`. Missing: certificates with bytes appended to them (`C90_false`), a start after February of a leap year (C51, C52), and sizes
other than those of `Unchanged`. -/
theorem C90_valid_partial : C90_for Unchanged := by
  intro env reads sock s h hcl hn hin hw
  refine ⟨C45_client_connects env reads sock s h hcl hn hin hw, ?_⟩
  intro r cm rest raw x t ee _ _ hsh hwf _ hu
  obtain ⟨_, _, _, _, _, _, hx, hv⟩ := hsh
  exact unchanged_valid hwf hu hx hv

/-- C90 does not hold: in 2030 the client connects to a server with the certificate of the repository, expired in February 2024, and a later date appended to it. -/
theorem C90_false : ¬ C90_statement := by
  intro H
  obtain ⟨_, y, _, hy, _⟩ := forged_identity
  obtain ⟨q, hq, hq1, hq2⟩ := example_draws none (some (ascii "anothertls.local"))
  obtain ⟨se, hse⟩ : ∃ se : ServerEnv, se = { exampleServer none (some (ascii "anothertls.local")) with
    config := ⟨ownKey, ⟨forgedOwn, none⟩, none, none, none, some (ascii "anothertls.local"), .urandom⟩ } := ⟨_, rfl⟩
  obtain ⟨ce, hce⟩ : ∃ ce : ClientEnv, ce = { exampleClient (some (ascii "anothertls.local")) with now := june2030 } := ⟨_, rfl⟩
  have hm : Matching ce se := by
    subst hse hce
    exact {
      prng := rfl
      name := fun a b h1 h2 => (Option.some.inj h1).symm.trans (Option.some.inj h2)
      utf8 := fun a h => by
        obtain rfl := Option.some.inj h
        exact ⟨by decide +kernel, by decide +kernel⟩
      size := by
        show forgedOwn.length ≤ 16000
        decide +kernel
      server := ⟨y, hy⟩
      auth := fun c h => by cases h
      other := fun c h => by
        obtain rfl := Option.some.inj h
        show (Spec.X509.certificate ownTbs ownR ownS).length + 400 ≤ 2 ^ 24
        decide +kernel }
  have hq' : q.From se [zeros 100, zeros 100, zeros 100] [zeros 100, oneRead, zeros 100] := by
    subst hse
    exact ⟨hq.client, hq.server, hq.secret⟩
  obtain ⟨kc, ks, g1, g2, g3⟩ := signed_exists ce se _ _ q hm hq' (hq1 ▸ example_shares.1) (hq2 ▸ example_shares.2)
  obtain ⟨r, rng, auth, ws, cws, R⟩ := runs g1 g2 (hq1 ▸ example_shares.1) (hq2 ▸ example_shares.2) g3
  have hown : ∀ c, ce.config.clientCert = some c → c.raw.length + 400 ≤ 2 ^ 24 := hm.other
  have hname : ∀ n, ce.config.serverName = some n → n.length < 2 ^ 24 := fun n hn => by have := (hm.utf8 n hn).2; omega
  have hsz : se.config.cert.raw.length ≤ 1800 := by
    subst hse
    show forgedOwn.length ≤ 1800
    decide +kernel
  obtain ⟨s, h, r', ha, hC, k1, _, _, _, k5⟩ := AgreeProof.run_completed R hsz hown hname
  obtain ⟨z1, z2, z3⟩ := AgreeProof.run_sizes R hsz (AgreeProof.auth_le R.client.proof)
  obtain ⟨ee, cm, cv, raw, x, e1, e2, _⟩ := hC.shown
  have hraw : raw = forgedOwn := by
    obtain ⟨c, n, post, q1, q2, q3, _⟩ := e2
    obtain ⟨request, cv', hreq, _, hfl⟩ := R.client.flight
    unfold ClientRun.transcript Exchange.transcript at k5
    rw [k1] at k5
    have hcert : se.config.cert.raw = forgedOwn := by subst hse; rfl
    have hreq0 : request = [] := by
      have hn : se.config.clientCertCa = none := by subst hse; rfl
      unfold Requested at hreq
      simp only [hn] at hreq
      exact hreq.2
    have hlt : r.flight.flatten.length ≤ 20000 := by
      unfold Exchange.transcript at z2
      rw [List.length_append] at z2
      omega
    rw [List.append_assoc] at k5
    have k6 := List.append_cancel_left k5
    rw [e1, q3] at k6
    have hlt' := hlt
    rw [← k6] at hlt'
    rw [hfl, hreq0] at k6 hlt
    unfold opening encryptedExtensions certificateMsg at k6
    unfold opening at hlt'
    simp only [List.flatten_append, List.flatten_cons, List.flatten_nil, List.append_nil, List.append_assoc] at k6
    obtain ⟨_, _, k7⟩ := AgreeProof.message_inj k6 (by simp only [Tls13.handshakeMessage, List.length_append] at hlt'; omega) (by decide)
    obtain ⟨k8, _⟩ := AgreeProof.requests_inj r'.requests [] (k7.trans (by rw [List.map_nil, List.flatten_nil, List.nil_append])) (by
      simp only [List.length_append, List.append_assoc] at hlt' ⊢
      omega)
    rw [← hcert]
    refine shown_raw (by simpa only [List.append_assoc] using k8) q1 q2 (by decide) ?_ ?_
    · simp only [Tls13.handshakeMessage, List.length_append] at hlt'
      omega
    · rw [hcert]
      decide +kernel
  have hin : (Tls13.plainRecord 22#8 r.sh :: r.ccs :: ws).flatten.length < 2 ^ 24 := by
    have := AgreeProof.sum_le (R.fromServer hsz)
    have hc := R.serverCount
    rw [List.length_cons, List.length_cons] at this
    omega
  have := (H { ce with nonces := [kc] } _ _ s h (fun c hc => by have := hown c hc; omega) hname hin ha).2 r' cm cv raw x ownTbs ee hC e1 e2 own_wellFormed
    ⟨forgedOwn.take 4, forgedOwn.drop (4 + ownTbs.encode.length), by decide +kernel, by rw [hraw]; decide +kernel⟩ trivial
  have h2 : ce.now ≤ unixOf ownTbs.notAfter := this.2
  have e : ce.now = june2030 := by subst hce; rfl
  rw [e] at h2
  revert h2
  decide +kernel

end ATLS
