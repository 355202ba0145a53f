import Verif.Props.Client
/-
C92: keys of other curves.
-/
namespace ATLS
open ATLS.Model ATLS.Spec FlowProof X509Proof WireProof

namespace X509Proof

theorem tbsOk_any {t : Spec.X509.Tbs} {m : Nat} (h : t.AnyCurve) (hs : t.encode.length < m) : TbsOk t m where
  version := h.version
  issuer := fun a ha => ⟨(h.issuer a ha).kind, (Utf8Proof.utf8Valid_iff _).2 (h.issuer a ha).text⟩
  subject := fun a ha => ⟨(h.subject a ha).kind, (Utf8Proof.utf8Valid_iff _).2 (h.subject a ha).text⟩
  notBefore := h.notBefore
  notAfter := h.notAfter
  key := by
    obtain ⟨k0, k, hk, hk0⟩ := h.key
    refine ⟨k0, k, hk, ?_⟩
    rcases hk0 with rfl | rfl | rfl <;> decide
  size := hs

theorem curve_iff (o : Bytes) (h : o.head? ≠ some 0#8) : parseObjectIdentifier o = "prime256v1" ↔ o = Spec.X509.prime256v1 := by
  constructor
  · intro hp
    unfold parseObjectIdentifier at hp
    split at hp <;> first
      | (exfalso; revert hp; decide)
      | (rename_i hv; exact oid_value_iff _ _ h (by decide) (by decide) (by decide) (hv.trans (by decide +kernel)))
  · rintro rfl
    exact alg_curve

/-- A key that is used is a P-256 key in uncompressed form. -/
theorem getPublicKey_curve {x : Model.X509} {t : Spec.X509.Tbs} {px py : Nat} (h : t.AnyCurve)
    (ha : x.spkAlgorithm = ⟨.ecPublicKey, some (parseObjectIdentifier t.curve)⟩) (hk : x.subjectPublicKey = t.key)
    (hp : x.getPublicKey = .ok ⟨⟨px, py⟩, Curve.secp256r1⟩) :
    t.curve = Spec.X509.prime256v1 ∧ ∃ more, t.key = Spec.X509.point px py ++ more := by
  unfold Model.X509.getPublicKey at hp
  rw [ha, hk] at hp
  simp only [ne_eq, not_true_eq_false, if_false, Res.okOr, Res.ok_bind] at hp
  split_ifs at hp with hc
  refine ⟨(curve_iff _ h.curve).1 hc, ?_⟩
  obtain ⟨b, hb, hp⟩ := Res.bind_eq_ok.1 hp
  split_ifs at hp with h4
  subst h4
  obtain ⟨bx, hbx, hp⟩ := Res.bind_eq_ok.1 hp
  obtain ⟨bY, hby, hp⟩ := Res.bind_eq_ok.1 hp
  have hp := Res.ok.inj hp
  obtain ⟨k0, k, hk2, _⟩ := h.key
  rw [hk2] at hb hbx hby ⊢
  have h0 : k0 = 4#8 := Res.ok.inj hb
  subst h0
  unfold slice at hbx hby
  split_ifs at hbx hby with h1 h2
  have lx := congrArg List.length (Res.ok.inj hbx)
  have ly := congrArg List.length (Res.ok.inj hby)
  have e1 : (px : Int) = toIbigBe bx := by injection hp with h1 _; injection h1 with h1 _; exact h1.symm
  have e2 : (py : Int) = toIbigBe bY := by injection hp with h1 _; injection h1 with _ h1; exact h1.symm
  rw [toIbigBe_eq] at e1 e2
  have e1 : px = beNat bx := by exact_mod_cast e1
  have e2 : py = beNat bY := by exact_mod_cast e2
  have hx := Res.ok.inj hbx
  have hy := Res.ok.inj hby
  simp only [List.length_take, List.length_drop, List.length_cons] at lx ly h1 h2
  refine ⟨k.drop 64, ?_⟩
  unfold Spec.X509.point
  have lbx : bx.length = 32 := by omega
  have lby : bY.length = 32 := by omega
  rw [e1, e2, show (32 : Nat) = bx.length from lbx.symm, beBytes_beNat, lbx, show (32 : Nat) = bY.length from lby.symm, beBytes_beNat, ← hx, ← hy]
  have t1 : (4#8 :: k).drop 1 = k := rfl
  have t2 : (4#8 :: k).drop 33 = k.drop 32 := rfl
  rw [t1, t2, List.cons_append, List.append_assoc]
  congr 1
  calc k = k.take 32 ++ k.drop 32 := (List.take_append_drop _ _).symm
    _ = k.take 32 ++ ((k.drop 32).take 32 ++ (k.drop 32).drop 32) := by rw [List.take_append_drop 32 (k.drop 32)]
    _ = _ := by rw [List.drop_drop]

end X509Proof

/-- Where the library looks for the part of a certificate that the CA signed: after an outer header of four bytes. -/
def SignedPart (t : Spec.X509.Tbs) (raw : Bytes) : Prop :=
  t.AnyCurve ∧ t.encode.length < 2 ^ 31 ∧ ∃ (l1 l2 : Byte) (rest : Bytes), raw = [0x30#8, 0x82#8, l1, l2] ++ t.encode ++ rest

/-- C92, the client: `connect` only succeeds with a server that signed with a P-256 key; it is the key in the part of its certificate that a CA signs. -/
theorem C92_server_key (env : ClientEnv) (reads : List Bytes) (sock : Socket) (s : TlsStream) (h : Option ClientHandshake)
    (hcl : ∀ c, env.config.clientCert = some c → c.raw.length < 2 ^ 24) (hn : ∀ n, env.config.serverName = some n → n.length < 2 ^ 24)
    (hin : sock.incoming.flatten.length < 2 ^ 24) (hw : ClientConnection.connect env reads sock = (.ok s, h)) :
    ∃ r ee cm cv raw x, ClientCompleted env reads sock s r ∧ r.shown = opening ee r.requests ++ cm ++ cv ∧ ServerCertificateShown env cm raw x ∧
      PossessionShown .server r.x x (r.x.hellos ++ opening ee r.requests ++ cm) cv ∧
      ∀ t, SignedPart t raw → t.curve = Spec.X509.prime256v1 ∧
        ∃ px py more, t.key = Spec.X509.point px py ++ more ∧ x.getPublicKey = .ok ⟨⟨px, py⟩, Curve.secp256r1⟩ := by
  obtain ⟨r, hr⟩ := C45_client_connects env reads sock s h hcl hn hin hw
  obtain ⟨ee, cm, cv, raw, x, h1, h2, h3⟩ := hr.shown
  refine ⟨r, ee, cm, cv, raw, x, hr, h1, h2, h3, ?_⟩
  rintro t ⟨ht, hl, l1, l2, rest, hraw⟩
  obtain ⟨_, _, _, _, _, _, hx, _⟩ := h2
  obtain ⟨_, _, _, px, py, _, _, _, _, _, hk, _⟩ := h3
  rw [hraw, List.append_assoc] at hx
  obtain ⟨_, _, k3, k4, _⟩ := fromRaw_signed t (tbsOk_any ht hl) l1 l2 rest x hx
  obtain ⟨g1, more, g2⟩ := getPublicKey_curve ht k4 k3 hk
  exact ⟨g1, px, py, more, g2, hk⟩

/-- C92, the server: with a client CA, `accept` only succeeds with a client that signed with a P-256 key; it is the key in the part of its certificate that the CA
signed. -/
theorem C92_client_key (env : ServerEnv) (reads : List Bytes) (sock : Socket) (s : TlsStream) (h : ServerHandshake) (ca : Certificate)
    (hc : env.config.cert.raw.length < 2 ^ 24) (hca : env.config.clientCertCa = some ca) (ha : ServerConnection.accept env reads sock = (.ok s, h)) :
    ∃ (r : Exchange) (context : Option Bytes) (m1 m2 fin tail raw : Bytes) (x : Model.X509), Accepted env reads sock s r context [m1, m2] fin tail ∧
      CertificateShown env ca context m1 raw x ∧ PossessionShown .client r.x x (r.transcript ++ m1) m2 ∧
      ∀ t, SignedPart t raw → t.curve = Spec.X509.prime256v1 ∧
        ∃ px py more, t.key = Spec.X509.point px py ++ more ∧ x.getPublicKey = .ok ⟨⟨px, py⟩, Curve.secp256r1⟩ := by
  obtain ⟨r, context, m1, m2, fin, tail, raw, x, h1, h2, h3⟩ := C43_client_auth_partial env reads sock s h ca hc hca ha
  refine ⟨r, context, m1, m2, fin, tail, raw, x, h1, h2, h3, ?_⟩
  rintro t ⟨ht, hl, l1, l2, rest, hraw⟩
  obtain ⟨_, _, _, _, _, _, _, hx, _⟩ := h2
  obtain ⟨_, _, _, px, py, _, _, _, _, _, hk, _⟩ := h3
  rw [hraw, List.append_assoc] at hx
  obtain ⟨_, _, k3, k4, _⟩ := fromRaw_signed t (tbsOk_any ht hl) l1 l2 rest x hx
  obtain ⟨g1, more, g2⟩ := getPublicKey_curve ht k4 k3 hk
  exact ⟨g1, px, py, more, g2, hk⟩

/-- C92, one certificate: no CertificateVerify message is accepted with a certificate for a key on another curve. It is refused, and nothing crashes. -/
theorem C92_refused (t : Spec.X509.Tbs) (r s : Nat) (h : t.AnyCurve) (hc : t.curve ≠ Spec.X509.prime256v1) (hl : (Spec.X509.certificate t r s).length < 2 ^ 16) :
    ∃ c, Certificate.fromRawX509 (Spec.X509.certificate t r s) = .ok c ∧
      ∀ (sig : Signature) (ts : TsHash) (label : Bytes), c.isCertificateValid sig ts label = .ok false := by
  obtain ⟨b1, b2, b3, b4, b5⟩ := certificate_bounds t r s hl
  have hf := fromRaw_certificate t (tbsOk_any h (by omega)) r s b3 b4 []
  rw [List.append_nil] at hf
  unfold Certificate.fromRawX509
  rw [hf]
  refine ⟨_, rfl, fun sig ts label => ?_⟩
  have : parseObjectIdentifier t.curve ≠ "prime256v1" := fun e => hc ((curve_iff _ h.curve).1 e)
  unfold Certificate.isCertificateValid Model.X509.getPublicKey
  simp only [Res.unwrap, Res.ok_bind, ne_eq, not_true_eq_false, if_false, Res.okOr, this]

/-- A CA with a key on another curve crashes the server when a client shows any certificate, rather than refusing it. -/
theorem C92_ca_panics (t : Spec.X509.Tbs) (r s : Nat) (h : t.AnyCurve) (hc : t.curve ≠ Spec.X509.prime256v1) (hl : (Spec.X509.certificate t r s).length < 2 ^ 16) :
    ∃ ca, Certificate.fromRawX509 (Spec.X509.certificate t r s) = .ok ca ∧ ∀ (raw : Bytes) (x : Model.X509), Certificate.hasSigned ca ⟨raw, some x⟩ = .panic := by
  obtain ⟨b1, b2, b3, b4, b5⟩ := certificate_bounds t r s hl
  have hf := fromRaw_certificate t (tbsOk_any h (by omega)) r s b3 b4 []
  rw [List.append_nil] at hf
  unfold Certificate.fromRawX509
  rw [hf]
  refine ⟨_, rfl, fun raw x => ?_⟩
  have : parseObjectIdentifier t.curve ≠ "prime256v1" := fun e => hc ((curve_iff _ h.curve).1 e)
  unfold Certificate.hasSigned Model.X509.getPublicKey
  simp only [Res.ok_bind, ne_eq, not_true_eq_false, if_false, Res.okOr, this]
  rfl

/-- The certificate of the repository with a key on the curve P-384 (1.3.132.0.34). -/
def p384Tbs : Spec.X509.Tbs := { ownTbs with curve := [0x2b, 0x81, 0x04, 0x00, 0x22], key := 4#8 :: (beBytes 48 5 ++ beBytes 48 7) }

example : p384Tbs.AnyCurve ∧ p384Tbs.curve ≠ Spec.X509.prime256v1 ∧ (Spec.X509.certificate p384Tbs ownR ownS).length < 2 ^ 16 :=
  ⟨{ version := own_wellFormed.version
     issuer := own_wellFormed.issuer
     subject := own_wellFormed.subject
     notBefore := own_wellFormed.notBefore
     notAfter := own_wellFormed.notAfter
     curve := by decide
     key := ⟨_, _, rfl, Or.inr (Or.inr rfl)⟩ }, by decide, by decide +kernel⟩

/-- The certificate of the repository is met by C92's condition on the signed part. -/
example : SignedPart ownTbs (Spec.X509.certificate ownTbs ownR ownS) :=
  ⟨{ version := own_wellFormed.version
     issuer := own_wellFormed.issuer
     subject := own_wellFormed.subject
     notBefore := own_wellFormed.notBefore
     notAfter := own_wellFormed.notAfter
     curve := by decide
     key := ⟨_, _, rfl, Or.inr (Or.inr rfl)⟩ }, by decide +kernel,
   0x02, 0x15, (Spec.X509.certificate ownTbs ownR ownS).drop (4 + ownTbs.encode.length), by decide +kernel⟩

end ATLS
