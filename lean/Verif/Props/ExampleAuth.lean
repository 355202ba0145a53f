import Verif.Props.ExampleServer
import Verif.Props.ClientAuth
import Verif.Props.RepoCerts
/-
C95: who gets the page of the example server with client authentication.
-/
namespace ATLS
open ATLS.Model ATLS.Spec ATLS.RecProof FlowProof X509Proof

/-- C95 for the certificates satisfying `P`: when the page makes a difference for what is sent on a connection, then the client completed the handshake with a certificate
signed by the CA and with a proof of possession of its key, and the common name in the signed part of the certificate is "otsmr". -/
def C95_for (P : Spec.X509.Tbs → Bytes → Prop) : Prop :=
  ∀ (page page' : Bytes) (v : Visit) (ca : Certificate), v.env.config.cert.raw.length < 2 ^ 24 → v.env.config.clientCertCa = some ca →
    v.env.config.clientCertCustomVerifyFn = some isOtsmr → serveOne page v ≠ serveOne page' v →
    ∃ s h, ServerConnection.accept v.env v.rng v.sock = (.ok s, h) ∧
    (∃ (r : Exchange) (context : Option Bytes) (m1 m2 fin tail raw : Bytes) (x : Model.X509), Accepted v.env v.rng v.sock s r context [m1, m2] fin tail ∧
      CertificateShown v.env ca context m1 raw x ∧ PossessionShown .client r.x x (r.transcript ++ m1) m2) ∧
    ∀ (r : Exchange) (context : Option Bytes) (m1 m2 fin tail raw : Bytes) (x : Model.X509) (t : Spec.X509.Tbs), Accepted v.env v.rng v.sock s r context [m1, m2] fin tail →
      CertificateShown v.env ca context m1 raw x → t.WellFormed → (∃ header rest : Bytes, header.length = 4 ∧ raw = header ++ t.encode ++ rest) → P t raw →
      Spec.X509.attributeValue t.subject [0x55, 0x04, 0x03] = some (ascii "otsmr")

/-- C95 in full. -/
def C95_statement : Prop := C95_for fun _ _ => True

/-- The certificate as it was issued: nothing added, below 64 KiB and with a to-be-signed part of at least 256 bytes. -/
structure AsIssued (t : Spec.X509.Tbs) (raw : Bytes) : Prop where
  whole : ∃ r s, raw = Spec.X509.certificate t r s
  size : raw.length < 2 ^ 16
  long : 256 ≤ t.body.length

theorem page_accepted {page page' : Bytes} {v : Visit} (h : serveOne page v ≠ serveOne page' v) :
    ∃ s h, ServerConnection.accept v.env v.rng v.sock = (.ok s, h) := by
  rcases ha : ServerConnection.accept v.env v.rng v.sock with ⟨r, k⟩
  cases r with
  | ok s => exact ⟨s, k, rfl⟩
  | err e => exact absurd (by unfold serveOne; rw [ha]) h
  | panic => exact absurd (by unfold serveOne; rw [ha]) h

/-- C95 for certificates as they were issued. Missing: those to which their holder added something, and other sizes (`C95_false`). -/
theorem C95_otsmr_partial : C95_for AsIssued := by
  intro page page' v ca hc hca hf hne
  obtain ⟨s, h, ha⟩ := page_accepted hne
  refine ⟨s, h, ha, C43_client_auth_partial v.env v.rng v.sock s h ca hc hca ha, ?_⟩
  intro r context m1 m2 fin tail raw x t _ hsh hwf _ hP
  obtain ⟨c, n, post, more, _, _, _, hx, _, _, hcustom⟩ := hsh
  have hx1 := hcustom _ hf
  obtain ⟨rr, ss, hraw⟩ := hP.whole
  obtain ⟨px, py, hpx, hpy, hk⟩ := hwf.key
  obtain ⟨x5, g1, _, _, _, g5, _⟩ := certificate_fields t rr ss px py hwf hpx hpy hk (hraw ▸ hP.size) hP.long
  rw [← hraw, hx] at g1
  obtain rfl := Res.ok.inj g1
  have g := g5 [0x55, 0x04, 0x03] "commonName" (by decide)
  unfold isOtsmr at hx1
  rw [g] at hx1
  cases hv : Spec.X509.attributeValue t.subject [0x55, 0x04, 0x03] with
  | none =>
    rw [hv] at hx1
    simp [Res.okOr] at hx1
  | some name =>
    rw [hv] at hx1
    simpa [Res.okOr] using hx1

/-- The example's certificate, issued to "anothertls.local", with the common name "otsmr" added by its holder. -/
def otsmrAttribute : Spec.X509.Attribute := ⟨[0x55, 0x04, 0x03], 0x0c#8, ascii "otsmr"⟩
def forgedOtsmr : Bytes := forged ownTbs ownR ownS ⟨2049, 12, 31, 0, 0, 0⟩ [otsmrAttribute]

/-- After a handshake that leaves later reads alone there is a request that is answered with the page. -/
theorem any_page {se : ServerEnv} {srng inc : List Bytes} {r : Exchange} {context : Option Bytes} {auth : List Bytes} {fin : Bytes}
    (h : ∀ more, ∃ s h, ServerConnection.accept se srng ⟨inc ++ more, [], []⟩ = (.ok s, h) ∧
      Accepted se srng ⟨inc ++ more, [], []⟩ s r context auth fin [] ∧ s.stream.incoming = more ∧ s.stream.failures = []) :
    ∃ w flight, ∀ page : Bytes, page.length ≤ 2 ^ 14 → page.length % 64 ≠ 63 →
      ∃ answer, serveOne page ⟨se, srng, ⟨inc ++ [w], [], []⟩⟩ = .done (flight ++ answer) ∧ answer.length = page.length + 22 := by
  obtain ⟨s0, h0, a0, hA0, _⟩ := h []
  obtain ⟨rng, hs', hello, answer, pk, share, body, q1, q2, q3, q4, q5, q6, q7, q8, q9, q10, q11, q12, q13, q14⟩ := hA0.answered
  obtain ⟨u, hu⟩ : ∃ u, (r.x.cs.asU16, u) ∈ Tls13.suites := by
    obtain ⟨p, hp, hpc, hw, hr⟩ := hA0.keys
    obtain ⟨u, h1, _⟩ := ChannelProof.transport q12 q13 hp hpc hw hr
    exact ⟨u, h1⟩
  obtain ⟨secret, hsec⟩ : ∃ secret, secret = r.x.sess.appSecret r.transcript .client := ⟨_, rfl⟩
  have hgood : ¬ BadRequest (ascii "GET /\r\n\r\n") := by
    rintro (h | h)
    · revert h; decide
    · exact h ((Utf8Proof.utf8Valid_iff _).1 (by decide +kernel))
  have hreq : (ascii "GET /\r\n\r\n").length = 9 := by decide
  obtain ⟨request, hrq⟩ : ∃ request, request = ascii "GET /\r\n\r\n" := ⟨_, rfl⟩
  rw [← hrq] at hgood hreq
  obtain ⟨w, hw, hwl⟩ := ChannelProof.protected_exists u (Tls13.writeKey u.hash secret u.keyLength) (Tls13.writeIv u.hash secret 12) 0 23#8 request (by rw [hreq]; decide)
  obtain ⟨s, h', a1, hA, a3, a4⟩ := h [w]
  obtain ⟨own, T⟩ : ∃ own, Transport r.x.cs.asU16 u s own secret := by
    obtain ⟨p, hp, hpc, hw, hr⟩ := hA.keys
    obtain ⟨u', h1, _, _, h4⟩ := ChannelProof.transport q12 q13 hp hpc hw hr
    obtain rfl := ChannelProof.suite_unique hu h1
    rw [← hsec] at h4
    exact ⟨_, h4⟩
  refine ⟨w, s.stream.written, fun page h1 h2 => ?_⟩
  obtain ⟨ans, b1, b2, _⟩ := ChannelProof.serves h1 h2 (v := ⟨se, srng, ⟨inc ++ [w], [], []⟩⟩) a1 T a3 a4 hw (by rw [hwl, hreq]; decide) (fun _ => by rw [hwl, hreq]; decide) hgood
  exact ⟨ans, b1, b2⟩

theorem forged_otsmr : ∃ ca y, Identity forgedOtsmr ownKey june2023 y ∧ Certificate.hasSigned ca ⟨forgedOtsmr, some y⟩ = .ok () ∧ isOtsmr y = true := by
  obtain ⟨ca, y, hca, hy, hs, hname⟩ := forged_any june2023 [otsmrAttribute] (by
      intro a ha
      rw [List.mem_singleton.1 ha]
      exact ⟨.inl rfl, (Utf8Proof.utf8Valid_iff _).1 (by decide +kernel), by decide⟩) (by decide +kernel)
    ⟨forgedOtsmr.getD 2 0, forgedOtsmr.getD 3 0, forgedOtsmr.drop (4 + ownTbs.encode.length), by decide +kernel⟩ (by decide +kernel)
  refine ⟨ca, y, hy, hs, ?_⟩
  unfold isOtsmr
  rw [hname [0x55, 0x04, 0x03] "commonName" (by decide)]
  have : Spec.X509.attributeValue (ownTbs.subject ++ [otsmrAttribute]) [0x55, 0x04, 0x03] = some (ascii "otsmr") := by decide +kernel
  rw [this]
  rfl

theorem forged_unsigned : (∃ header rest : Bytes, header.length = 4 ∧ forgedOtsmr = header ++ ownTbs.encode ++ rest) ∧
    Spec.X509.attributeValue ownTbs.subject [0x55, 0x04, 0x03] ≠ some (ascii "otsmr") ∧ forgedOtsmr.length ≤ 3900 :=
  ⟨⟨forgedOtsmr.take 4, forgedOtsmr.drop (4 + ownTbs.encode.length), by decide +kernel, by decide +kernel⟩, by decide +kernel, by decide +kernel⟩

/-- C95 does not hold: a client with a certificate signed by the CA for "anothertls.local" adds an end of validity and the common name "otsmr" to it, after the signed part, and gets
the page. -/
theorem C95_false : ¬ C95_statement := by
  intro H
  obtain ⟨ca, y, hy, hs, hotsmr⟩ := forged_otsmr
  obtain ⟨k1, k2, k3⟩ := forged_unsigned
  obtain ⟨fo, hfo⟩ : ∃ fo, fo = forgedOtsmr := ⟨_, rfl⟩
  rw [← hfo] at hy hs k1 k3
  obtain ⟨se, srng, inc, e1, e2, _, e4, r, context, m1, m2, fin, e5⟩ := shown_run ca fo ownKey june2023 y (some isOtsmr) hy hs (fun g hg => by
    obtain rfl := Option.some.inj hg
    exact hotsmr) k3
  obtain ⟨w, flight, hpage⟩ := any_page fun more => by
    obtain ⟨s, h, a1, a2, a3, a4, _⟩ := e5 more
    exact ⟨s, h, a1, a2, a3, a4⟩
  obtain ⟨s, h, a1, hA, _, _, x, hx⟩ := e5 [w]
  have hl : helloAdmin.length = 113 := by decide +kernel
  have hne : serveOne helloAdmin ⟨se, srng, ⟨inc ++ [w], [], []⟩⟩ ≠ serveOne [] ⟨se, srng, ⟨inc ++ [w], [], []⟩⟩ := by
    obtain ⟨ans, b1, b2⟩ := hpage helloAdmin (by rw [hl]; decide) (by rw [hl]; decide)
    obtain ⟨ans', c1, c2⟩ := hpage [] (by simp) (by simp)
    rw [b1, c1]
    intro h
    have := congrArg List.length (Served.done.inj h)
    rw [List.length_append, List.length_append, b2, c2, hl, List.length_nil] at this
    omega
  obtain ⟨s', h', b1, _, b3⟩ := H helloAdmin [] ⟨se, srng, ⟨inc ++ [w], [], []⟩⟩ ca (by show se.config.cert.raw.length < _; omega) e1 e2 hne
  obtain rfl : s = s' := by
    have := a1.symm.trans b1
    exact Res.ok.inj (Prod.mk.inj this).1
  exact k2 (b3 r context m1 m2 fin [] fo x ownTbs hA hx own_wellFormed k1 trivial)

/-- A concrete case of `C95_otsmr_partial`: the client of /repo/examples/src/bin/config/client_cert, with its certificate as issued by the CA there, gets the page. -/
theorem C95_example : ∃ (ca : Certificate) (v : Visit) (flight answer : Bytes), v.env.config.cert.raw.length < 2 ^ 24 ∧ v.env.config.clientCertCa = some ca ∧
    Certificate.fromRawX509 (Spec.X509.certificate caTbs caR caS) = .ok ca ∧ v.env.config.clientCertCustomVerifyFn = some isOtsmr ∧
    serveOne helloAdmin v ≠ serveOne [] v ∧ serveOne helloAdmin v = .done (flight ++ answer) ∧ answer.length = helloAdmin.length + 22 ∧
    AsIssued otsmrTbs (Spec.X509.certificate otsmrTbs otsmrR otsmrS) ∧ otsmrTbs.WellFormed ∧
    (∃ header rest : Bytes, header.length = 4 ∧ Spec.X509.certificate otsmrTbs otsmrR otsmrS = header ++ otsmrTbs.encode ++ rest) ∧
    ∃ s h r context m1 m2 fin x, ServerConnection.accept v.env v.rng v.sock = (.ok s, h) ∧ Accepted v.env v.rng v.sock s r context [m1, m2] fin [] ∧
      CertificateShown v.env ca context m1 (Spec.X509.certificate otsmrTbs otsmrR otsmrS) x := by
  obtain ⟨ca, y, hca, hy, hs, hname⟩ := X509Proof.otsmr_identity
  have hotsmr : isOtsmr y = true := by
    unfold isOtsmr
    rw [hname [0x55, 0x04, 0x03] "commonName" (by decide)]
    have : Spec.X509.attributeValue otsmrTbs.subject [0x55, 0x04, 0x03] = some (ascii "otsmr") := by decide +kernel
    rw [this]
    rfl
  have h1 : AsIssued otsmrTbs (Spec.X509.certificate otsmrTbs otsmrR otsmrS) := ⟨⟨_, _, rfl⟩, by decide +kernel, by decide +kernel⟩
  have h2 : ∃ header rest : Bytes, header.length = 4 ∧ Spec.X509.certificate otsmrTbs otsmrR otsmrS = header ++ otsmrTbs.encode ++ rest :=
    ⟨(Spec.X509.certificate otsmrTbs otsmrR otsmrS).take 4, (Spec.X509.certificate otsmrTbs otsmrR otsmrS).drop (4 + otsmrTbs.encode.length), by decide +kernel, by decide +kernel⟩
  have h3 : (Spec.X509.certificate otsmrTbs otsmrR otsmrS).length ≤ 3900 := by decide +kernel
  obtain ⟨raw, hraw⟩ : ∃ raw, raw = Spec.X509.certificate otsmrTbs otsmrR otsmrS := ⟨_, rfl⟩
  rw [← hraw] at hy hs h1 h2 h3 ⊢
  obtain ⟨se, srng, inc, e1, e2, _, e4, r, context, m1, m2, fin, e5⟩ := shown_run ca raw otsmrKey june2023 y (some isOtsmr) hy hs (fun g hg => by
    obtain rfl := Option.some.inj hg
    exact hotsmr) h3
  obtain ⟨w, flight, hpage⟩ := any_page fun more => by
    obtain ⟨s, h, a1, a2, a3, a4, _⟩ := e5 more
    exact ⟨s, h, a1, a2, a3, a4⟩
  obtain ⟨s, h, a1, hA, _, _, x, hx⟩ := e5 [w]
  have hl : helloAdmin.length = 113 := by decide +kernel
  obtain ⟨ans, b1, b2⟩ := hpage helloAdmin (by rw [hl]; decide) (by rw [hl]; decide)
  obtain ⟨ans', c1, c2⟩ := hpage [] (by simp) (by simp)
  refine ⟨ca, ⟨se, srng, ⟨inc ++ [w], [], []⟩⟩, flight, ans, by show se.config.cert.raw.length < _; omega, e1, hca, e2, ?_, b1, b2, h1, X509Proof.otsmr_wellFormed, h2,
    s, h, r, context, m1, m2, fin, x, a1, hA, hx⟩
  rw [b1, c1]
  intro h
  have := congrArg List.length (Served.done.inj h)
  rw [List.length_append, List.length_append, b2, c2, hl, List.length_nil] at this
  omega

end ATLS
