import Verif.Props.Limits
import Verif.Spec.SigAlg
/-
C115: the hash function of the signature in a client's certificate.
-/
namespace ATLS
open ATLS.Model ATLS.Spec FlowProof RfcProof LimitsProof

/-- The server takes the certificate `leaf`, sent alone in a Certificate message with the context `y`. -/
def Takes (env : ServerEnv) (y : Bytes) (leaf : Tls13.Cert) : Prop :=
  ∃ cert, cert.raw = leaf.der ∧ Presented env (some y) (Tls13.handshakeMessage 11#8 (Tls13.certificateMessage y [(leaf.der, [])])) cert

/-- C115 for the certificates satisfying `P`: a client's certificate in its validity period is taken exactly if the CA's key has signed it with the
algorithm it names. -/
def C115_for (P : Tls13.Cert → Prop) : Prop :=
  ∀ (env : ServerEnv) (ca leaf : Tls13.Cert) (Q : Nat × Nat) (y : Bytes), TrustsCa env ca Q → env.config.clientCertCustomVerifyFn = none →
    leaf.tbs.WellFormed → leaf.InPeriod env.now → GoodDates leaf env.now → leaf.der.length < 2 ^ 16 → 256 ≤ leaf.tbs.body.length → y.length < 256 →
    P leaf → (Takes env y leaf ↔ leaf.SignedAsNamed Q)

/-- C115 in full. -/
def C115_statement : Prop := C115_for fun _ => True

/-- C115: whatever algorithm a certificate names, it is taken exactly if it is signed with ECDSA and SHA-256. -/
theorem C115_always (env : ServerEnv) (ca leaf : Tls13.Cert) (Q : Nat × Nat) (y : Bytes) (hca : TrustsCa env ca Q)
    (hfn : env.config.clientCertCustomVerifyFn = none) (hw : leaf.tbs.WellFormed) (hp : leaf.InPeriod env.now) (hd : GoodDates leaf env.now)
    (hl : leaf.der.length < 2 ^ 16) (hb : 256 ≤ leaf.tbs.body.length) (hy : y.length < 256) : Takes env y leaf ↔ leaf.SignedBy Q :=
  ⟨fun ⟨cert, h1, h2⟩ => C114_signed_partial env ca leaf Q hca hw hl hb _ _ cert h1 h2, fun h => C114_anything env ca Q hca hfn leaf h hw hp hd hl hb y hy⟩

/-- C115 for certificates that name SHA-256. Missing: those that name SHA-384 (`C115_refused`, `C115_taken`). -/
theorem C115_sha256_partial : C115_for fun leaf => leaf.tbs.sigAlg = .ecdsaWithSha256 := by
  intro env ca leaf Q y hca hfn hw hp hd hl hb hy hP
  rw [C115_always env ca leaf Q y hca hfn hw hp hd hl hb hy]
  unfold Tls13.Cert.SignedBy Tls13.Cert.SignedAsNamed
  rw [hP]
  rfl

/-- The certificate of the unit test utils/x509.rs:660, naming ECDSA with SHA-384. -/
def sha384Tbs : X509.Tbs := { ownTbs with sigAlg := .ecdsaWithSha384 }

/-- Signed accordingly by its own key. -/
def rightCert : Tls13.Cert := ⟨sha384Tbs, 0x76c084b2d299344b583fecd74d4af1a61fa3ef5a1825c048b84222302620d90a, 0xaf51be3ce76fb1a074fbeae886ee59faaef343e3fb5ea42c8f9a86aa42213ebb⟩

/-- Signed by the same key with SHA-256 instead. -/
def mixedCert : Tls13.Cert := ⟨sha384Tbs, 0x57fe106d4288bb74aab72b805cf2c34694c58bb11d023804f9ec76889a4d668, 0xc29c8c25e6be6996a3e009021589eeddaf2fb95b7f7c4f616b0135bf768448f7⟩

namespace SigHashProof

theorem sha384_wellFormed : sha384Tbs.WellFormed where
  version := X509Proof.own_wellFormed.version
  issuer := X509Proof.own_wellFormed.issuer
  subject := X509Proof.own_wellFormed.subject
  notBefore := X509Proof.own_wellFormed.notBefore
  notAfter := X509Proof.own_wellFormed.notAfter
  curve := rfl
  key := X509Proof.own_wellFormed.key

/-- Evaluating the model's check decides the specification's. -/
theorem accepts_iff (hash : Bytes) (hl : hash.length ≤ 32) (r s : Nat) (b : Bool)
    (h : Ecdsa.verify ⟨⟨(ownQ.1 : Int), (ownQ.2 : Int)⟩, .secp256r1⟩ ⟨(s : Int), (r : Int)⟩ hash = .ok b) :
    Spec.Ecdsa.Accepts ((ownQ.1 : Int), (ownQ.2 : Int)) r s (Spec.Ecdsa.hashInt hash) ↔ b = true := by
  obtain ⟨ans, h1, h2⟩ := C30_fips (ownQ.1 : Int) (ownQ.2 : Int) s r (by omega) (by omega) hash hl
  rw [h] at h1
  rw [← h2, Res.ok.inj h1]

theorem right_named : rightCert.SignedAsNamed ownQ := by
  have e : Spec.Ecdsa.hashInt (Sha2.sha384 sha384Tbs.encode) = Spec.Ecdsa.hashInt ((Model.sha384 sha384Tbs.encode).take 32) := by
    rw [(C07_sha384_fips _ (by decide +kernel)).1]
    unfold Spec.Ecdsa.hashInt
    rw [List.take_take, Nat.min_self]
  show Spec.Ecdsa.Accepts _ _ _ (Spec.Ecdsa.hashInt (Sha2.sha384 sha384Tbs.encode))
  rw [e]
  exact (accepts_iff _ (by rw [List.length_take]; omega) rightCert.r rightCert.s true (by decide +kernel)).2 rfl

theorem right_refused : ¬ rightCert.SignedBy ownQ := by
  show ¬ Spec.Ecdsa.Accepts _ _ _ (Spec.Ecdsa.hashInt (Sha2.sha256 sha384Tbs.encode))
  rw [← (C06_sha256_fips _ (by decide +kernel)).1]
  rw [accepts_iff _ (by rw [(C06_sha256_fips _ (by decide +kernel)).2]) rightCert.r rightCert.s false (by decide +kernel)]
  decide

theorem mixed_taken : mixedCert.SignedBy ownQ := by
  show Spec.Ecdsa.Accepts _ _ _ (Spec.Ecdsa.hashInt (Sha2.sha256 sha384Tbs.encode))
  rw [← (C06_sha256_fips _ (by decide +kernel)).1]
  exact (accepts_iff _ (by rw [(C06_sha256_fips _ (by decide +kernel)).2]) mixedCert.r mixedCert.s true (by decide +kernel)).2 rfl

theorem mixed_named : ¬ mixedCert.SignedAsNamed ownQ := by
  have e : Spec.Ecdsa.hashInt (Sha2.sha384 sha384Tbs.encode) = Spec.Ecdsa.hashInt ((Model.sha384 sha384Tbs.encode).take 32) := by
    rw [(C07_sha384_fips _ (by decide +kernel)).1]
    unfold Spec.Ecdsa.hashInt
    rw [List.take_take, Nat.min_self]
  show ¬ Spec.Ecdsa.Accepts _ _ _ (Spec.Ecdsa.hashInt (Sha2.sha384 sha384Tbs.encode))
  rw [e, accepts_iff _ (by rw [List.length_take]; omega) mixedCert.r mixedCert.s false (by decide +kernel)]
  decide

/-- The hypotheses of C115 for certificates with this signed part. -/
theorem meets (r s : Nat) (hr : r < 2 ^ 256) (hs : s < 2 ^ 256) : ∃ x, TrustsCa (askingServer true x []) ⟨ownTbs, ownR, ownS⟩ ownQ ∧
    (askingServer true x []).config.clientCertCustomVerifyFn = none ∧ sha384Tbs.WellFormed ∧
    Tls13.Cert.InPeriod ⟨sha384Tbs, r, s⟩ (askingServer true x []).now ∧ GoodDates ⟨sha384Tbs, r, s⟩ (askingServer true x []).now ∧
    (Tls13.Cert.der ⟨sha384Tbs, r, s⟩).length < 2 ^ 16 ∧ 256 ≤ sha384Tbs.body.length := by
  obtain ⟨x, hx⟩ := trusting
  have := certificate_le sha384Tbs hr hs
  have h2 : sha384Tbs.encode.length ≤ 60000 := by decide +kernel
  exact ⟨x, hx, rfl, sha384_wellFormed, own_period, (show GoodDates ⟨ownTbs, ownR, ownS⟩ june2023 from ⟨by decide, by decide, Or.inr (Or.inr (by decide +kernel))⟩),
    (by show (X509.certificate sha384Tbs r s).length < 2 ^ 16; omega), by decide +kernel⟩

end SigHashProof

open SigHashProof

/-- C115: a certificate that the CA has properly signed with ECDSA and SHA-384 is refused. -/
theorem C115_refused : ∃ x, TrustsCa (askingServer true x []) ⟨ownTbs, ownR, ownS⟩ ownQ ∧ rightCert.SignedAsNamed ownQ ∧
    ∀ y : Bytes, y.length < 256 → ¬ Takes (askingServer true x []) y rightCert := by
  obtain ⟨x, h1, h2, h3, h4, h5, h6, h7⟩ := meets rightCert.r rightCert.s (by decide) (by decide)
  refine ⟨x, h1, right_named, fun y hy h => right_refused ?_⟩
  exact (C115_always _ _ rightCert _ y h1 h2 h3 h4 h5 h6 h7 hy).1 h

/-- C115: a certificate that names SHA-384, with a signature that is not valid for SHA-384, is taken. -/
theorem C115_taken : ∃ x, TrustsCa (askingServer true x []) ⟨ownTbs, ownR, ownS⟩ ownQ ∧ mixedCert.tbs.sigAlg = .ecdsaWithSha384 ∧
    ¬ mixedCert.SignedAsNamed ownQ ∧ ∀ y : Bytes, y.length < 256 → Takes (askingServer true x []) y mixedCert := by
  obtain ⟨x, h1, h2, h3, h4, h5, h6, h7⟩ := meets mixedCert.r mixedCert.s (by decide) (by decide)
  exact ⟨x, h1, rfl, mixed_named, fun y hy => (C115_always _ _ mixedCert _ y h1 h2 h3 h4 h5 h6 h7 hy).2 mixed_taken⟩

/-- C115 in full is false. -/
theorem C115_false : ¬ C115_statement := by
  intro h
  obtain ⟨x, h1, h2, h3, h4, h5, h6, h7⟩ := meets rightCert.r rightCert.s (by decide) (by decide)
  have := (h _ _ rightCert _ [] h1 h2 h3 h4 h5 h6 h7 (by decide) trivial).2 right_named
  exact right_refused ((C115_always _ _ rightCert _ [] h1 h2 h3 h4 h5 h6 h7 (by decide)).1 this)

/-- The hypotheses of `C115_sha256_partial` are met: the certificate `ownTbs` itself, signed by its own key. -/
example : ∃ x r s, TrustsCa (askingServer true x []) ⟨ownTbs, ownR, ownS⟩ ownQ ∧ Tls13.Cert.SignedAsNamed ⟨ownTbs, r, s⟩ ownQ ∧
    Takes (askingServer true x []) (zeros 32) ⟨ownTbs, r, s⟩ := by
  obtain ⟨x, hx⟩ := trusting
  obtain ⟨r, s, h1, h2⟩ := ca_signs ownTbs (by decide +kernel)
  have hn : Tls13.Cert.SignedAsNamed ⟨ownTbs, r, s⟩ ownQ := h1
  exact ⟨x, r, s, hx, hn, (C115_sha256_partial _ _ ⟨ownTbs, r, s⟩ _ (zeros 32) hx rfl X509Proof.own_wellFormed own_period
    (show GoodDates ⟨ownTbs, ownR, ownS⟩ june2023 from ⟨by decide, by decide, Or.inr (Or.inr (by decide +kernel))⟩) h2 (show 256 ≤ ownTbs.body.length by decide +kernel) (by decide) rfl).2 hn⟩

end ATLS
