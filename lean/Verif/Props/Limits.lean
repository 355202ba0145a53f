import Verif.Props.RfcClientExample
import Verif.Spec.Limits
/-
C114: the limits written into a client's certificate.
-/
namespace ATLS
open ATLS.Model ATLS.Spec FlowProof RfcProof

/-- The configured client CA is the certificate `ca`. -/
def TrustsCa (env : ServerEnv) (ca : Tls13.Cert) (Q : Nat × Nat) : Prop :=
  ∃ x, Model.X509.fromRaw ca.der = .ok x ∧ env.config.clientCertCa = some ⟨ca.der, some x⟩ ∧ ca.tbs.WellFormed ∧ ca.Certifies Q ∧ ca.der.length < 2 ^ 16

/-- C114 in full: whenever the server takes the certificate in a client's message, its own limits allow that. -/
def C114_statement : Prop :=
  ∀ (env : ServerEnv) (ca leaf : Tls13.Cert) (Q : Nat × Nat) (es : List X509.Extension) (context : Option Bytes) (m : Bytes) (cert : Certificate),
    TrustsCa env ca Q → leaf.tbs.WellFormed → leaf.tbs.extensions = some (X509.extensionList es) → cert.raw = leaf.der →
    Presented env context m cert → X509.AllowsClient ca.tbs leaf.tbs es

namespace LimitsProof

theorem ca_key {env : ServerEnv} {ca : Tls13.Cert} {Q : Nat × Nat} (h : TrustsCa env ca Q) :
    ∃ x, env.config.clientCertCa = some ⟨ca.der, some x⟩ ∧ x.getPublicKey = .ok ⟨⟨Q.1, Q.2⟩, Curve.secp256r1⟩ := by
  obtain ⟨x, p1, p2, p3, p4, p5⟩ := h
  refine ⟨x, p2, ?_⟩
  obtain ⟨b1, b2, b3, b4, b5⟩ := X509Proof.certificate_bounds ca.tbs ca.r ca.s p5
  have hcf := X509Proof.fromRaw_certificate ca.tbs (X509Proof.tbsOk p3 (by omega)) ca.r ca.s b3 b4 []
  rw [List.append_nil] at hcf
  have := Res.ok.inj (p1.symm.trans hcf)
  rw [this]
  exact X509Proof.getPublicKey_point _ Q.1 Q.2 p4.1 p4.2.1 (by simp only [X509Proof.curve_name p3]) p4.2.2

theorem fromHello_parsed {now : Nat} {buf : Bytes} {cert : Certificate} (h : Certificate.fromHello now buf = .ok [cert]) :
    Certificate.fromRawX509 cert.raw = .ok cert := by
  unfold Certificate.fromHello at h
  obtain ⟨_, _, h⟩ := Res.bind_eq_ok.1 h
  obtain ⟨_, _, h⟩ := Res.bind_eq_ok.1 h
  simp only [] at h
  split_ifs at h
  obtain ⟨_, _, h⟩ := Res.bind_eq_ok.1 h
  obtain ⟨raw, _, h⟩ := Res.bind_eq_ok.1 h
  obtain ⟨c, hc, h⟩ := Res.bind_eq_ok.1 h
  obtain ⟨_, _, h⟩ := Res.bind_eq_ok.1 h
  obtain ⟨_, _, h⟩ := Res.bind_eq_ok.1 h
  obtain ⟨_, _, h⟩ := Res.bind_eq_ok.1 h
  split_ifs at h
  have h := (List.cons.inj (Res.ok.inj h)).1
  subst h
  have : c.raw = raw := by
    unfold Certificate.fromRawX509 at hc
    obtain ⟨_, _, e⟩ := Res.bind_eq_ok.1 hc
    rw [← Res.ok.inj e]
  rw [this]; exact hc

theorem head_le (tag : Byte) (b : Bytes) : (Der.tlv tag b).length ≤ b.length + 6 := by
  unfold Der.tlv Der.length
  simp only [List.length_cons, List.length_append]
  split
  · simp; omega
  split
  · simp [beBytes_length]; omega
  split
  · simp [beBytes_length]; omega
  split
  · simp [beBytes_length]; omega
  · simp [beBytes_length]; omega

theorem certificate_le (t : X509.Tbs) {r s : Nat} (hr : r < 2 ^ 256) (hs : s < 2 ^ 256) : (X509.certificate t r s).length ≤ t.encode.length + 150 := by
  have h1 := sig_length hr hs
  have h2 := intLen_le hr
  have h3 := intLen_le hs
  have h4 : t.sigAlg.encode.length ≤ 20 := by cases t.sigAlg <;> decide
  have h5 := head_le 0x03#8 (0#8 :: Der.ecdsaSig r s)
  have h6 := head_le 0x30#8 (t.encode ++ (t.sigAlg.encode ++ X509.bitString (Der.ecdsaSig r s)))
  unfold X509.certificate Der.sequence
  unfold X509.bitString at h6 ⊢
  simp only [List.length_append, List.length_cons] at h5 h6 ⊢
  omega

end LimitsProof

open LimitsProof

/-- C114: whatever it says, every certificate that the CA's key has signed is taken from the client's message: the issuer's name and the extensions
play no part. For certificates in their validity period, with a signed part of at least 256 bytes (others: C68), and without a custom function of the
server. -/
theorem C114_anything (env : ServerEnv) (ca : Tls13.Cert) (Q : Nat × Nat) (hca : TrustsCa env ca Q) (hfn : env.config.clientCertCustomVerifyFn = none)
    (leaf : Tls13.Cert) (hs : leaf.SignedBy Q) (hw : leaf.tbs.WellFormed) (hp : leaf.InPeriod env.now) (hd : GoodDates leaf env.now)
    (hl : leaf.der.length < 2 ^ 16) (hb : 256 ≤ leaf.tbs.body.length) (y : Bytes) (hy : y.length < 256) :
    ∃ cert, cert.raw = leaf.der ∧ Presented env (some y) (Tls13.handshakeMessage 11#8 (Tls13.certificateMessage y [(leaf.der, [])])) cert := by
  obtain ⟨x, e1, e2⟩ := ca_key hca
  obtain ⟨px, py, hpx, hpy, hk⟩ := hw.key
  obtain ⟨lx, f1, f2, f3⟩ := leaf_read (Q := (px, py)) hw ⟨hpx, hpy, hk⟩ hl hp hd
  refine ⟨⟨leaf.der, some lx⟩, rfl, ?_⟩
  have hel : (([(leaf.der, ([] : Bytes))]).map Tls13.certificateEntry).flatten.length < 2 ^ 17 := by
    simp only [List.map_cons, List.map_nil, List.flatten_cons, List.flatten_nil, List.append_nil, Tls13.certificateEntry, List.length_append, beBytes_length,
      List.length_nil]
    omega
  have hbl : (Tls13.certificateMessage y [(leaf.der, [])]).length < 2 ^ 24 := by
    unfold Tls13.certificateMessage
    simp only [List.length_append, beBytes_length]
    omega
  have hraw := fromRaw_message .certificate (Tls13.certificateMessage y [(leaf.der, [])]) [] hbl
  rw [List.append_nil] at hraw
  have hcm : ∃ more, Tls13.certificateMessage y [(leaf.der, [])] = beBytes 1 y.length ++ y ++ more := by
    unfold Tls13.certificateMessage
    simp only [List.append_assoc]
    exact ⟨_, rfl⟩
  obtain ⟨more, hcm⟩ := hcm
  refine ⟨_, _, y, more, lx, e1, hraw, rfl, rfl, hcm, ((C70_read env.now y hy).2 _ _ _ (by omega)).1 lx f1 f3, ?_, rfl, fun f hf => ?_⟩
  · exact (C68_signed leaf.tbs leaf.r leaf.s Q.1 Q.2 hw hl hb ⟨ca.der, some x⟩ x rfl e2 ⟨leaf.der, some lx⟩ (by
      unfold Certificate.fromRawX509
      have : Model.X509.fromRaw (X509.certificate leaf.tbs leaf.r leaf.s) = .ok lx := f1
      rw [this]
      rfl)).2 hs
  · rw [hfn] at hf; cases hf

/-- C114 as far as it holds: a certificate that is taken has a signed part of which the CA's key made the signature, so that its limits are at least
those the CA wrote. Missing: that they are looked at (`C114_anything`). -/
theorem C114_signed_partial (env : ServerEnv) (ca leaf : Tls13.Cert) (Q : Nat × Nat) (hca : TrustsCa env ca Q) (hw : leaf.tbs.WellFormed)
    (hl : leaf.der.length < 2 ^ 16) (hb : 256 ≤ leaf.tbs.body.length) (context : Option Bytes) (m : Bytes) (cert : Certificate)
    (hr : cert.raw = leaf.der) (h : Presented env context m cert) : leaf.SignedBy Q := by
  obtain ⟨x, e1, e2⟩ := ca_key hca
  obtain ⟨px, py, hpx, hpy, hk⟩ := hw.key
  obtain ⟨b1, b2, b3, b4, b5⟩ := X509Proof.certificate_bounds leaf.tbs leaf.r leaf.s hl
  obtain ⟨ca', hs, c, rest, lx, g1, _, _, _, _, g6, g7, g8, _⟩ := h
  rw [e1] at g1
  obtain rfl := Option.some.inj g1
  exact (C68_signed leaf.tbs leaf.r leaf.s Q.1 Q.2 hw hl hb ⟨ca.der, some x⟩ x rfl e2 cert (by
    have := fromHello_parsed g6
    rw [hr] at this
    exact this)).1 g7

/-- A certificate for somebody else's server, from another issuer: it names "ca" as its issuer, its key is for encrypting keys only and for servers
only, and it has a critical extension nobody knows. -/
def foreignExtensions : List X509.Extension :=
  [⟨X509.idKeyUsage, true, [0x03, 0x02, 0x05, 0x20]⟩, ⟨X509.idExtKeyUsage, true, [0x30, 0x0a, 0x06, 0x08, 0x2b, 0x06, 0x01, 0x05, 0x05, 0x07, 0x03, 0x01]⟩,
    ⟨[0x2a, 0x03, 0x04], true, [0x05, 0x00]⟩]

@[inherit_doc foreignExtensions] def foreignTbs : X509.Tbs :=
  { ownTbs with issuer := [⟨[0x55, 0x04, 0x03], 0x0c, ascii "ca"⟩], extensions := some (X509.extensionList foreignExtensions) }

namespace LimitsProof

theorem trusting : ∃ x, TrustsCa (askingServer true x []) ⟨ownTbs, ownR, ownS⟩ ownQ := by
  obtain ⟨b1, b2, b3, b4, b5⟩ := X509Proof.certificate_bounds ownTbs ownR ownS (by decide +kernel)
  have hcf := X509Proof.fromRaw_certificate ownTbs (X509Proof.tbsOk X509Proof.own_wellFormed (by omega)) ownR ownS b3 b4 []
  rw [List.append_nil] at hcf
  exact ⟨_, _, hcf, rfl, X509Proof.own_wellFormed, ⟨by decide +kernel, by decide +kernel, rfl⟩, by
    show (X509.certificate ownTbs ownR ownS).length < 2 ^ 16
    decide +kernel⟩

theorem foreign_wellFormed : foreignTbs.WellFormed where
  version := X509Proof.own_wellFormed.version
  issuer := by
    intro a ha
    simp only [foreignTbs, List.mem_cons, List.not_mem_nil, or_false] at ha
    subst ha
    exact ⟨by decide, X509Proof.isText_ascii _ (by decide), by decide⟩
  subject := X509Proof.own_wellFormed.subject
  notBefore := X509Proof.own_wellFormed.notBefore
  notAfter := X509Proof.own_wellFormed.notAfter
  curve := rfl
  key := X509Proof.own_wellFormed.key

/-- The CA's key can sign anything. -/
theorem ca_signs (t : X509.Tbs) (ht : t.encode.length ≤ 60000) : ∃ r s, Tls13.Cert.SignedBy ⟨t, r, s⟩ ownQ ∧ (X509.certificate t r s).length < 2 ^ 16 := by
  have hd : ¬ (P256.n : Int) ∣ ownKey.secret := by decide +kernel
  obtain ⟨k, hk⟩ := PairProof.signs_of (key := ownKey) rfl hd t.encode
  obtain ⟨r, s, _, _, h3, _⟩ := signed_rfc (key := ownKey) rfl hd (by omega) hk
  rw [own_coords] at h3
  refine ⟨r, s, h3, ?_⟩
  obtain ⟨_, _, _, _, r2, _, t2, _⟩ := id h3
  have hn256 := n_lt
  have := certificate_le t (r := r) (s := s) (by omega) (by omega)
  omega

end LimitsProof

/-- C114: such a certificate, once signed, is taken. -/
theorem C114_example : ∃ (x : Model.X509) (r s : Nat) (cert : Certificate), TrustsCa (askingServer true x []) ⟨ownTbs, ownR, ownS⟩ ownQ ∧
    cert.raw = X509.certificate foreignTbs r s ∧
    Presented (askingServer true x []) (some (zeros 32)) (Tls13.handshakeMessage 11#8 (Tls13.certificateMessage (zeros 32) [(X509.certificate foreignTbs r s, [])])) cert := by
  obtain ⟨x, hx⟩ := trusting
  obtain ⟨r, s, h1, h2⟩ := ca_signs foreignTbs (by decide +kernel)
  obtain ⟨cert, g1, g2⟩ := C114_anything (askingServer true x []) ⟨ownTbs, ownR, ownS⟩ ownQ hx rfl ⟨foreignTbs, r, s⟩ h1 foreign_wellFormed
    own_period (show GoodDates ⟨ownTbs, ownR, ownS⟩ june2023 from ⟨by decide, by decide, Or.inr (Or.inr (by decide +kernel))⟩) h2
    (show 256 ≤ foreignTbs.body.length by decide +kernel) (zeros 32) (by decide)
  exact ⟨x, r, s, cert, hx, g1, g2⟩

/-- C114 in full is false. -/
theorem C114_false : ¬ C114_statement := by
  intro h
  obtain ⟨x, r, s, cert, h1, h2, h3⟩ := C114_example
  have := (h (askingServer true x []) ⟨ownTbs, ownR, ownS⟩ ⟨foreignTbs, r, s⟩ ownQ foreignExtensions _ _ cert h1 foreign_wellFormed rfl h2 h3).issuer
  exact absurd (show foreignTbs.issuer = ownTbs.subject from this) (by decide +kernel)

/-- None of the four limits is respected: the certificate of the example violates each. -/
theorem C114_none : foreignTbs.issuer ≠ ownTbs.subject ∧ (∃ e ∈ foreignExtensions, e.critical = true ∧ e.oid ∉ X509.recognised) ∧
    (∃ e ∈ foreignExtensions, e.oid = X509.idKeyUsage ∧ ∀ unused bits more, e.value = Der.tlv 0x03#8 (unused :: bits :: more) → bits.getMsbD 0 = false) ∧
    ∃ e ∈ foreignExtensions, e.oid = X509.idExtKeyUsage ∧ e.value = Der.sequence (X509.objectIdentifier [0x2b, 0x06, 0x01, 0x05, 0x05, 0x07, 0x03, 0x01]) := by
  refine ⟨by decide +kernel, ⟨_, List.mem_cons_of_mem _ (List.mem_cons_of_mem _ (List.mem_cons_self ..)), by decide, by decide⟩,
    ⟨_, List.mem_cons_self .., rfl, ?_⟩, ⟨_, List.mem_cons_of_mem _ (List.mem_cons_self ..), rfl, by decide +kernel⟩⟩
  intro unused bits more h
  unfold Der.tlv at h
  have hl := congrArg List.length h
  have hlen : more = [] := by
    cases more with
    | nil => rfl
    | cons a as =>
      exfalso
      have : (Der.length (unused :: bits :: a :: as).length).length ≥ 1 := by unfold Der.length; split <;> (try split) <;> (try split) <;> (try split) <;> simp
      simp only [List.length_cons, List.length_append, List.length_nil] at hl this
      omega
  subst hlen
  simp [Der.length] at h
  rw [← h.2]
  decide

end ATLS
