import Verif.Props.Pair
import Verif.Props.X509
import Verif.Proof.Nonce
/-
C60's hypotheses are met: for every matching configuration and all keys whose shares do not start with a zero byte there are nonces that complete the
handshake; and the library's example server with the certificate and the key of the repository is a concrete case, with and without client
authentication.
-/
namespace ATLS
open ATLS.Model ATLS.Spec FlowProof X509Proof

namespace PairProof

theorem signs_of {key : PrivateKey} (hc : key.curve = .secp256r1) (hd : ¬ (P256.n : Int) ∣ key.secret) (content : Bytes) :
    ∃ k, Signs (fun v => 2 ^ 248 ≤ v) [k] key content := by
  obtain ⟨curve, d⟩ := key
  simp only at hc hd
  subst hc
  obtain ⟨k, sig, h1, h2, h3, h4⟩ := NonceProof.good_nonce d hd (Sha2.sha256 content)
  exact ⟨k, by simpa using h1, sig, h2, h3, h4⟩

theorem flight_unique {se : ServerEnv} {x : Params} {context : Option Bytes} {f g : List Bytes} (hf : ServerFlight se x context f)
    (hg : ServerFlight se x context g) : f = g := by
  obtain ⟨r1, c1, a1, ⟨s1, d1, b1, b2, b3⟩, e1⟩ := hf
  obtain ⟨r2, c2, a2, ⟨s2, d2, b4, b5, b6⟩, e2⟩ := hg
  have hr : r1 = r2 := by
    unfold Requested at a1 a2
    cases hc : se.config.clientCertCa with
    | none =>
      simp only [hc] at a1 a2
      rw [a1.2, a2.2]
    | some ca =>
      simp only [hc] at a1 a2
      obtain ⟨x1, _, h1, h2⟩ := a1
      obtain ⟨x2, _, h3, h4⟩ := a2
      rw [h1] at h3
      rw [h2, h4, Option.some.inj h3]
  subst hr
  rw [b1] at b4
  obtain rfl := Option.some.inj (Res.ok.inj b4)
  rw [b2] at b5
  obtain rfl := Res.ok.inj b5
  rw [e1, e2, b3, b6]

/-- The secret of the key exchange is 32 bytes, for every private key and every share. -/
theorem secret_total {n : Int} (h0 : 0 ≤ n) (h1 : n < 2 ^ 256) {share : Bytes} (hl : share.length = 32) :
    ∃ s, sharedSecret ⟨.curve25519, n⟩ share = .ok s ∧ s.length = 32 := by
  have b1 := beNat_lt share
  rw [hl] at b1
  have e := shared_eq h0 h1 (ibigTo32_big (ε := Unit) (beNat share) b1) (beBytes_length _ _)
  have l2 : (Spec.X25519.x25519 (scalarBytes n) (beBytes 32 (beNat share * 256 ^ (32 - (ubigLe (beNat share)).length)))).length = 32 := leBytes_length 32 _
  have b2 := beNat_lt (Spec.X25519.x25519 (scalarBytes n) (beBytes 32 (beNat share * 256 ^ (32 - (ubigLe (beNat share)).length))))
  rw [l2] at b2
  exact ⟨_, e.trans (ibigTo32_big _ b2), beBytes_length _ _⟩

theorem bytes_total {b : Bytes} (hb : b.length = 100) (rest : List Bytes) :
    ((Rng.urandom (b :: rest)).bytes 32 : Res TlsError (Bytes × Rng)) = .ok (b.take 32, .urandom rest) := by
  simp only [Rng.bytes, readFromUrandom]
  rw [if_pos hb, Res.ok_bind]
  simp only [slice]
  rw [if_pos ⟨by omega, by omega⟩]
  rfl

theorem between_total {b : Bytes} (hb : b.length = 100) (rest : List Bytes) :
    ∃ v, ((Rng.urandom (b :: rest)).between 1 32 : Res TlsError (Int × Rng)) = .ok (v, .urandom rest) := by
  have h1 : (slice b 0 8 : Res TlsError Bytes) = .ok (b.take 8) := by
    simp only [slice]
    rw [if_pos ⟨by omega, by omega⟩]
    rfl
  obtain ⟨v, hv⟩ : ∃ v, (toU64Le (b.take 8) : Res TlsError (BitVec 64)) = .ok v := by
    simp only [toU64Le, slice]
    rw [if_pos ⟨by omega, by simp; omega⟩]
    exact ⟨_, rfl⟩
  have h2 : ∃ d, (slice b 8 (v.toNat % 50 + 50) : Res TlsError Bytes) = .ok d := by
    simp only [slice]
    rw [if_pos ⟨by omega, by omega⟩]
    exact ⟨_, rfl⟩
  obtain ⟨d, hd⟩ := h2
  refine ⟨(toIbigBe d : Int).tmod (2 ^ (32 * 8) - 2 ^ (1 * 8)) + 2 ^ (1 * 8), ?_⟩
  simp only [Rng.between, URandomRng.next, readFromUrandom]
  rw [if_pos hb, Res.ok_bind]
  simp only [h1, Res.ok_bind, hv, hd]
  rw [if_neg (by norm_num)]

end PairProof

open PairProof

/-- Three reads of `/dev/urandom` on each end are enough, whatever they give: all draws succeed and the client has a secret. -/
theorem C60_draws (se : ServerEnv) (c1 c2 c3 s1 s2 s3 : Bytes) (hc : c1.length = 100 ∧ c2.length = 100 ∧ c3.length = 100)
    (hs : s1.length = 100 ∧ s2.length = 100 ∧ s3.length = 100) : ∃ q : Draws, q.From se [c1, c2, c3] [s1, s2, s3] := by
  obtain ⟨v, hv⟩ := between_total hc.1 [c2, c3]
  obtain ⟨w, hw⟩ := between_total hs.2.1 [s3]
  have b1 := NegProof.between_range hv
  obtain ⟨s, h1, _⟩ := secret_total (n := v) (by omega) b1.2 (publicShare_length w)
  exact ⟨⟨v, _, _, _, w, _, s⟩, ⟨_, _, _, hv, bytes_total hc.2.1 _, bytes_total hc.2.2 _⟩, ⟨_, _, _, bytes_total hs.1 _, hw, fun _ => bytes_total hs.2.2 _⟩, h1⟩

/-- For every matching configuration and all keys whose shares do not start with a zero byte there are nonces that meet the conditions of C60. -/
theorem PairProof.signed_exists (ce : ClientEnv) (se : ServerEnv) (crng srng : List Bytes) (q : Draws) (hm : Matching ce se) (hq : q.From se crng srng)
    (h1 : (publicShare q.clientKey).getD 0 0 ≠ 0) (h2 : (publicShare q.serverKey).getD 0 0 ≠ 0) :
    ∃ kc ks : Int, Matching { ce with nonces := [kc] } { se with nonces := [ks] } ∧ q.From { se with nonces := [ks] } crng srng ∧
      Signed (fun v => 2 ^ 248 ≤ v) q { ce with nonces := [kc] } { se with nonces := [ks] } := by
  obtain ⟨x, hid⟩ := hm.server
  obtain ⟨ks, hks⟩ := signs_of hid.curve hid.scalar (Tls13.verifyContent .server ((q.params ce).sess.hash.H (q.presented ce se)))
  have hm' : ∀ kc, Matching { ce with nonces := [kc] } { se with nonces := [ks] } := fun kc =>
    ⟨hm.prng, hm.name, hm.utf8, hm.size, hm.server, hm.auth, hm.other⟩
  have hq' : q.From { se with nonces := [ks] } crng srng := ⟨hq.client, hq.server, hq.secret⟩
  have hsh := (answered hq hm h1 h2).2.2
  obtain ⟨vb, flight, hfl, _⟩ := flight_of (ce := { ce with nonces := [0] }) hq' (hm' 0) hid hsh hks
  have hcl : ∃ kc, ∀ ca cert key, se.config.clientCertCa = some ca → ce.config.clientCert = some cert → ce.config.clientKey = some key →
      Signs (fun v => 2 ^ 248 ≤ v) [kc] key (Tls13.verifyContent .client ((q.params ce).sess.hash.H ((q.params ce).hellos ++ flight.flatten ++
        Tls13.handshakeMessage 11#8 (Tls13.certificateMessage q.context [(cert.raw, [])])))) := by
    cases hca : se.config.clientCertCa with
    | none => exact ⟨0, fun _ _ _ h => by cases h⟩
    | some ca =>
      obtain ⟨cert, key, y, g1, g2, g3, _⟩ := hm.auth ca hca
      obtain ⟨kc, hkc⟩ := signs_of g3.curve g3.scalar (Tls13.verifyContent .client ((q.params ce).sess.hash.H ((q.params ce).hellos ++ flight.flatten ++
        Tls13.handshakeMessage 11#8 (Tls13.certificateMessage q.context [(cert.raw, [])]))))
      refine ⟨kc, fun ca' cert' key' _ e2 e3 => ?_⟩
      rw [g1] at e2
      rw [g2] at e3
      obtain rfl := Option.some.inj e2
      obtain rfl := Option.some.inj e3
      exact hkc
  obtain ⟨kc, hkc⟩ := hcl
  refine ⟨kc, ks, hm' kc, hq', ⟨hks, ?_⟩⟩
  intro flight' ca cert key e1 e2 e3 e4
  obtain rfl := flight_unique hfl e4
  exact hkc ca cert key e1 e2 e3

/-- For every matching configuration and all keys whose shares do not start with a zero byte there are nonces with which the handshake completes. -/
theorem C60_nonces (ce : ClientEnv) (se : ServerEnv) (crng srng : List Bytes) (q : Draws) (hm : Matching ce se) (hq : q.From se crng srng)
    (h1 : (publicShare q.clientKey).getD 0 0 ≠ 0) (h2 : (publicShare q.serverKey).getD 0 0 ≠ 0) :
    ∃ kc ks : Int, Completes { ce with nonces := [kc] } { se with nonces := [ks] } crng srng := by
  obtain ⟨kc, ks, g1, g2, g3⟩ := signed_exists ce se crng srng q hm hq h1 h2
  exact ⟨kc, ks, C60_handshake_partial { ce with nonces := [kc] } { se with nonces := [ks] } crng srng q g1 g2 h1 h2 g3⟩

/-- /repo/examples/src/bin/config/server.key: the private key of the certificate `ownBytes`. -/
def ownKey : PrivateKey := ⟨.secp256r1, 0x80677a1fee4eb412764f930d1f6dce3281384612675cf94c0432292217db318c⟩

theorem ownKey_public : ownKey.getPublicKey = .ok ⟨⟨0x6eed2bfee88db30f90001b34f24ad85a96aedc7c01d175f81d6da2a3d96f29c8,
    0x6d5e14735b63f2d579e067b503bb42c1d934f5b7316fa57a13d0454577d194e5⟩, .secp256r1⟩ := by decide +kernel

/-- The first of June 2023, when the certificate was valid. -/
def june2023 : Nat := 1685577600

/-- A read of `/dev/urandom` from which the private key 257 is drawn; 100 zero bytes give 256. -/
def oneRead : Bytes := zeros 49 ++ [1#8] ++ zeros 50

theorem own_identity : ∃ x, Identity (Spec.X509.certificate ownTbs ownR ownS) ownKey june2023 x ∧
    Certificate.hasSigned ⟨Spec.X509.certificate ownTbs ownR ownS, some x⟩ ⟨Spec.X509.certificate ownTbs ownR ownS, some x⟩ = .ok () := by
  obtain ⟨x, h1, _, h2, _, _, h3, _, _⟩ := certificate_fields ownTbs ownR ownS _ _ own_wellFormed (by decide +kernel) (by decide +kernel) rfl (by decide +kernel) (by decide +kernel)
  refine ⟨x, ⟨rfl, by decide +kernel, h1, ⟨_, ownKey_public, h3⟩, ?_⟩, ?_⟩
  · rw [h2]
    decide +kernel
  · obtain ⟨c, hc, hs⟩ := own_signed
    unfold Certificate.fromRawX509 at hc
    rw [h1] at hc
    rw [← Res.ok.inj hc] at hs
    exact hs

/-- A server with the repository's certificate and key, without (`none`) or with the certificate as client CA; and a client with the same
certificate and key. -/
def exampleServer (ca : Option Certificate) (name : Option Bytes) : ServerEnv where
  config := ⟨ownKey, ⟨Spec.X509.certificate ownTbs ownR ownS, none⟩, ca, none, some (ascii "keys.log"), name, .urandom⟩
  nonces := []
  now := june2023

@[inherit_doc exampleServer] def exampleClient (name : Option Bytes) : ClientEnv where
  config := ⟨name, some ⟨Spec.X509.certificate ownTbs ownR ownS, none⟩, some ownKey, some (ascii "keys.log")⟩
  nonces := []
  now := june2023

theorem example_matching (x : Model.X509) (hx : Identity (Spec.X509.certificate ownTbs ownR ownS) ownKey june2023 x)
    (hs : Certificate.hasSigned ⟨Spec.X509.certificate ownTbs ownR ownS, some x⟩ ⟨Spec.X509.certificate ownTbs ownR ownS, some x⟩ = .ok ())
    (ca : Option Certificate) (hca : ca = none ∨ ca = some ⟨Spec.X509.certificate ownTbs ownR ownS, some x⟩) :
    Matching (exampleClient (some (ascii "anothertls.local"))) (exampleServer ca (some (ascii "anothertls.local"))) where
  prng := rfl
  name := fun a b h1 h2 => (Option.some.inj h1).symm.trans (Option.some.inj h2)
  utf8 := fun a h => by
    obtain rfl := Option.some.inj h
    exact ⟨by decide +kernel, by decide +kernel⟩
  size := by
    show (Spec.X509.certificate ownTbs ownR ownS).length ≤ 16000
    decide +kernel
  server := ⟨x, hx⟩
  auth := fun c h => by
    refine ⟨_, _, x, rfl, rfl, hx, ?_, ?_, fun f hf => by cases hf⟩
    · show (Spec.X509.certificate ownTbs ownR ownS).length ≤ 3900
      decide +kernel
    · rcases hca with rfl | rfl
      · cases h
      · obtain rfl := Option.some.inj h
        exact hs
  other := fun c h => by
    obtain rfl := Option.some.inj h
    show (Spec.X509.certificate ownTbs ownR ownS).length + 400 ≤ 2 ^ 24
    decide +kernel

theorem example_shares : (publicShare 256).getD 0 0 ≠ 0 ∧ (publicShare 257).getD 0 0 ≠ 0 := by
  constructor <;> (rw [publicShare_n]; decide +kernel)

theorem example_between : ((Rng.urandom [zeros 100, zeros 100, zeros 100]).between 1 32 : Res TlsError (Int × Rng)) = .ok (256, .urandom [zeros 100, zeros 100]) ∧
    ((Rng.urandom [oneRead, zeros 100]).between 1 32 : Res TlsError (Int × Rng)) = .ok (257, .urandom [zeros 100]) := by
  constructor <;> decide +kernel

/-- What the two ends draw from these reads. -/
theorem example_draws (ca : Option Certificate) (name : Option Bytes) : ∃ q : Draws, q.From (exampleServer ca name)
    [zeros 100, zeros 100, zeros 100] [zeros 100, oneRead, zeros 100] ∧ q.clientKey = 256 ∧ q.serverKey = 257 := by
  obtain ⟨s, hs, _⟩ := secret_total (n := 256) (by norm_num) (by norm_num) (publicShare_length 257)
  exact ⟨⟨256, zeros 32, zeros 32, zeros 32, 257, zeros 32, s⟩, ⟨⟨_, _, _, example_between.1, rfl, rfl⟩, ⟨_, _, _, rfl, example_between.2, fun _ => rfl⟩, hs⟩, rfl, rfl⟩

/-- C60 is about something: the two ends complete the handshake, without and with client authentication. -/
theorem C60_example : (∃ kc ks : Int, Completes { exampleClient (some (ascii "anothertls.local")) with nonces := [kc] }
      { exampleServer none (some (ascii "anothertls.local")) with nonces := [ks] } [zeros 100, zeros 100, zeros 100] [zeros 100, oneRead, zeros 100]) ∧
    ∃ (ca : Certificate) (kc ks : Int), Completes { exampleClient (some (ascii "anothertls.local")) with nonces := [kc] }
      { exampleServer (some ca) (some (ascii "anothertls.local")) with nonces := [ks] } [zeros 100, zeros 100, zeros 100] [zeros 100, oneRead, zeros 100] := by
  obtain ⟨x, hx, hs⟩ := own_identity
  obtain ⟨q, hq, h1, h2⟩ := example_draws none (some (ascii "anothertls.local"))
  obtain ⟨q', hq', h1', h2'⟩ := example_draws (some ⟨Spec.X509.certificate ownTbs ownR ownS, some x⟩) (some (ascii "anothertls.local"))
  exact ⟨C60_nonces _ _ _ _ q (example_matching x hx hs none (.inl rfl)) hq (h1 ▸ example_shares.1) (h2 ▸ example_shares.2),
    ⟨_, C60_nonces _ _ _ _ q' (example_matching x hx hs _ (.inr rfl)) hq' (h1' ▸ example_shares.1) (h2' ▸ example_shares.2)⟩⟩

/-- The runs behind the example, for use as an example elsewhere: without a client CA and with one. -/
theorem PairProof.example_runs : (∃ kc ks q r rng auth ws cws, Runs { exampleClient (some (ascii "anothertls.local")) with nonces := [kc] }
      { exampleServer none (some (ascii "anothertls.local")) with nonces := [ks] } [zeros 100, zeros 100, zeros 100] [zeros 100, oneRead, zeros 100] q r rng auth ws cws) ∧
    ∃ ca kc ks q r rng auth ws cws, Runs { exampleClient (some (ascii "anothertls.local")) with nonces := [kc] }
      { exampleServer (some ca) (some (ascii "anothertls.local")) with nonces := [ks] } [zeros 100, zeros 100, zeros 100] [zeros 100, oneRead, zeros 100] q r rng auth ws cws := by
  obtain ⟨x, hx, hs⟩ := own_identity
  obtain ⟨q, hq, h1, h2⟩ := example_draws none (some (ascii "anothertls.local"))
  obtain ⟨q', hq', h1', h2'⟩ := example_draws (some ⟨Spec.X509.certificate ownTbs ownR ownS, some x⟩) (some (ascii "anothertls.local"))
  obtain ⟨kc, ks, g1, g2, g3⟩ := signed_exists _ _ _ _ q (example_matching x hx hs none (.inl rfl)) hq (h1 ▸ example_shares.1) (h2 ▸ example_shares.2)
  obtain ⟨kc', ks', g1', g2', g3'⟩ := signed_exists _ _ _ _ q' (example_matching x hx hs _ (.inr rfl)) hq' (h1' ▸ example_shares.1) (h2' ▸ example_shares.2)
  exact ⟨⟨kc, ks, q, runs g1 g2 (h1 ▸ example_shares.1) (h2 ▸ example_shares.2) g3⟩,
    ⟨_, kc', ks', q', runs g1' g2' (h1' ▸ example_shares.1) (h2' ▸ example_shares.2) g3'⟩⟩

end ATLS
