import Verif.Props.ExampleClient
import Verif.Props.ExampleAuth
import Verif.Props.AgreementExample
import Verif.Props.FilesExample
import Verif.Props.RepoFiles
import Verif.Spec.Time
/-
C98: the example programs, as they are shipped with the repository's certificates and keys, work while the server's certificate is valid.
-/
namespace ATLS
open ATLS.Model ATLS.Spec FlowProof X509Proof

/-- The page of a server: an HTTP response with an HTML body (RFC 9110, 9112), of the length it states. -/
def htmlPage (body : String) : Bytes :=
  ascii "HTTP/1.1 200\r\nServer: AnotherTls/1.0\r\nContent-Type: text/html; charset=utf-8\r\nContent-Length: " ++ ascii (toString body.length) ++ ascii "\r\n\r\n" ++ ascii body

/-- A client with the configuration `cc` visits a server with the configuration `sc` at the time `now` and prints the page, whatever the two draw, if the
key shares satisfy `S`, the numbers of the signatures satisfy `P` and the records arrive as given (as in C97). -/
def Visits (S : Bytes → Prop) (P : Int → Prop) (arriveC arriveS : List Bytes → List Bytes → List Bytes → Prop) (page : Bytes) (sc : ServerConfig) (cc : ClientConfig)
    (now : Nat) : Prop :=
  ∀ (kc ks : List Int) (crng srng : List Bytes) (q : Draws), q.From ⟨sc, ks, now⟩ crng srng → S (publicShare q.clientKey) → S (publicShare q.serverKey) →
    Signed P q ⟨cc, kc, now⟩ ⟨sc, ks, now⟩ → Fetches (ascii "localhost") page ⟨cc, kc, now⟩ ⟨sc, ks, now⟩ crng srng arriveC arriveS

/-- C98 up to the time `last`: from the first second of validity of the certificates involved, the programs read their files and the client prints
the server's page, which is a greeting. -/
def C98_for (S : Bytes → Prop) (P : Int → Prop) (arriveC arriveS : List Bytes → List Bytes → List Bytes → Prop) (last : Nat) : Prop := ∀ now ≤ last,
  (Time.unix 2023 3 9 10 18 12 ≤ now → ∃ sc cc, serverHttpsConfig (some serverCert) (some serverKey) = .ok sc ∧ clientHttpsConfig = .ok cc ∧
    Visits S P arriveC arriveS helloWorld sc cc now ∧ helloWorld = htmlPage "Hello world!") ∧
  (Time.unix 2023 3 16 18 3 52 ≤ now → ∃ sc cc, serverAuthConfig (some caCert) (some serverCert) (some serverKey) = .ok sc ∧
    clientAuthConfig (some clientSignedCert) (some clientKey) = .ok cc ∧ Visits S P arriveC arriveS helloAdmin sc cc now ∧ helloAdmin = htmlPage "Hello admin!\n")

/-- C98 in full: until the last second of validity of the server's certificate, 2024-03-08 10:18:12 (the client's is valid a week longer), with all random
values and every way TCP may cut and join the records. -/
def C98_statement : Prop := C98_for (fun _ => True) (fun _ => True)
  (fun handshake data incoming => ∃ a b, incoming = a ++ b ∧ a.flatten = handshake.flatten ∧ b.flatten = data.flatten ∧ ∀ x ∈ incoming, x ≠ [])
  (fun handshake data incoming => incoming.flatten = (handshake ++ data).flatten ∧ ∀ x ∈ incoming, x ≠ [])
  (Time.unix 2024 3 8 10 18 12)

namespace ShippedProof

theorem pages : helloWorld = htmlPage "Hello world!" ∧ helloAdmin = htmlPage "Hello admin!\n" := by decide +kernel

theorem isValid_of {ε : Type} {v : Validity} {a b : UtcTime} {lo hi : Nat} (h : v = ⟨some a, some b⟩) (ha : (a.getUnixTimestamp : Res ε Nat) = .ok lo)
    (hb : (b.getUnixTimestamp : Res ε Nat) = .ok hi) (now : Nat) : (v.isValid now : Res ε Bool) = .ok (decide (lo ≤ now ∧ now ≤ hi)) := by
  subst h
  unfold Validity.isValid
  simp only [ha, hb, Res.ok_bind]
  by_cases h1 : now < lo
  · have : ¬ (lo ≤ now ∧ now ≤ hi) := by omega
    simp [h1, this]
  · by_cases h2 : now > hi
    · have : ¬ (lo ≤ now ∧ now ≤ hi) := by omega
      simp [h1, h2, this]
    · have : lo ≤ now ∧ now ≤ hi := by omega
      simp [h1, h2, this]

/-- When the library takes the server's certificate for valid: until a day before its end. -/
theorem own_valid {x : Model.X509} (hx : X509.fromRaw (Spec.X509.certificate ownTbs ownR ownS) = .ok x) (now : Nat) :
    (x.validity.isValid now : Res TlsError Bool) = .ok (decide (Time.unix 2023 3 9 10 18 12 ≤ now ∧ now ≤ Time.unix 2024 3 7 10 18 12)) := by
  obtain ⟨y, h1, _, h2, _⟩ := certificate_fields ownTbs ownR ownS _ _ own_wellFormed (by decide +kernel) (by decide +kernel) rfl (by decide +kernel) (by decide +kernel)
  obtain rfl := Res.ok.inj (h1.symm.trans hx)
  exact isValid_of h2 (by decide +kernel) (by decide +kernel) now

/-- Likewise the client's. -/
theorem otsmr_valid {x : Model.X509} (hx : X509.fromRaw (Spec.X509.certificate otsmrTbs otsmrR otsmrS) = .ok x) (now : Nat) :
    (x.validity.isValid now : Res TlsError Bool) = .ok (decide (Time.unix 2023 3 16 18 3 52 ≤ now ∧ now ≤ Time.unix 2024 3 14 18 3 52)) := by
  obtain ⟨y, h1, _, h2, _⟩ := certificate_fields otsmrTbs otsmrR otsmrS _ _ otsmr_wellFormed (by decide +kernel) (by decide +kernel) rfl (by decide +kernel) (by decide +kernel)
  obtain rfl := Res.ok.inj (h1.symm.trans hx)
  exact isValid_of h2 (by decide +kernel) (by decide +kernel) now

theorem identity_at {raw : Bytes} {key : PrivateKey} {t now : Nat} {x : Model.X509} (h : Identity raw key t x)
    (hv : (x.validity.isValid now : Res TlsError Bool) = .ok true) : Identity raw key now x :=
  ⟨h.curve, h.scalar, h.parsed, h.public_, hv⟩

/-- The configuration of server_https.rs. -/
theorem https_server : serverHttpsConfig (some serverCert) (some serverKey) =
    .ok ⟨ownKey, ⟨Spec.X509.certificate ownTbs ownR ownS, none⟩, none, none, some (ascii "keylog.txt"), none, .urandom⟩ := by
  have h1 : (Certificate.fromPem (some serverCert) : Res Bytes (Option Certificate)) = .ok (some ⟨Spec.X509.certificate ownTbs ownR ownS, none⟩) :=
    (C80_last _ _ serverCert_file (by simp)).trans rfl
  have h3 : (PrivateKey.fromPem (some serverKey) : Res Bytes (Option PrivateKey)) = .ok (some ownKey) :=
    C79_key_partial _ _ _ _ (by norm_num) (by simp) (by intro p hp; obtain rfl := Option.some.inj hp; decide) serverKey_file
  unfold serverHttpsConfig ServerConfigBuilder.addCertPemFile ServerConfigBuilder.addPrivkeyPemFile
  rw [h1, h3]
  rfl

/-- The configuration of client_https.rs. -/
theorem https_client : clientHttpsConfig = .ok ⟨some localhost, none, none, some (ascii "keylog.txt")⟩ := rfl

/-- The configuration of server_client_auth.rs. -/
theorem auth_server {ca : Certificate} (hca : Certificate.fromRawX509 (Spec.X509.certificate caTbs caR caS) = .ok ca) :
    serverAuthConfig (some caCert) (some serverCert) (some serverKey) =
      .ok ⟨ownKey, ⟨Spec.X509.certificate ownTbs ownR ownS, none⟩, some ca, some isOtsmr, some (ascii "./examples/src/bin/config/keylog.txt"), none, .urandom⟩ := by
  have h1 : (Certificate.fromPem (some serverCert) : Res Bytes (Option Certificate)) = .ok (some ⟨Spec.X509.certificate ownTbs ownR ownS, none⟩) :=
    (C80_last _ _ serverCert_file (by simp)).trans rfl
  have h2 : (Certificate.fromPemX509 (some caCert) : Res Bytes (Option Certificate)) = .ok (some ca) := by
    rw [C80_x509_partial _ _ (Spec.X509.certificate caTbs caR caS) caCert_file (by simp [titled])]
    unfold Certificate.fromRawX509 at hca
    cases hx : X509.fromRaw (Spec.X509.certificate caTbs caR caS) with
    | ok x => rw [hx] at hca; exact congrArg (fun c => Res.ok (some c)) (Res.ok.inj hca)
    | err e => rw [hx] at hca; cases hca
    | panic => rw [hx] at hca; cases hca
  have h3 : (PrivateKey.fromPem (some serverKey) : Res Bytes (Option PrivateKey)) = .ok (some ownKey) :=
    C79_key_partial _ _ _ _ (by norm_num) (by simp) (by intro p hp; obtain rfl := Option.some.inj hp; decide) serverKey_file
  unfold serverAuthConfig ServerConfigBuilder.addCertPemFile ServerConfigBuilder.addPrivkeyPemFile ServerConfigBuilder.addClientCertCaFile
  rw [h1, h2, h3]
  rfl

/-- The configuration of client_client_auth.rs. -/
theorem auth_client {x : Model.X509} (hx : X509.fromRaw (Spec.X509.certificate otsmrTbs otsmrR otsmrS) = .ok x) :
    clientAuthConfig (some clientSignedCert) (some clientKey) =
      .ok ⟨some localhost, some ⟨Spec.X509.certificate otsmrTbs otsmrR otsmrS, some x⟩, some otsmrKey, some (ascii "keylog.txt")⟩ := by
  have h2 : (Certificate.fromPemX509 (some clientSignedCert) : Res Bytes (Option Certificate)) = .ok (some ⟨Spec.X509.certificate otsmrTbs otsmrR otsmrS, some x⟩) := by
    rw [C80_x509_partial _ _ (Spec.X509.certificate otsmrTbs otsmrR otsmrS) clientSignedCert_file (by simp [titled]), hx]
  have h3 : (PrivateKey.fromPem (some clientKey) : Res Bytes (Option PrivateKey)) = .ok (some otsmrKey) :=
    C79_key_partial _ _ _ _ (by norm_num) (by simp) (by intro p hp; obtain rfl := Option.some.inj hp; decide) clientKey_file
  unfold clientAuthConfig ClientConfigBuilder.addClientCertPemFile ClientConfigBuilder.addClientKeyPemFile
  rw [h2, h3]
  rfl

theorem localhost_ok : ∀ a, some localhost = some a → utf8Valid a = true ∧ a.length ≤ 3800 := fun a h => by
  obtain rfl := Option.some.inj h
  exact ⟨by decide +kernel, by decide +kernel⟩

/-- The two of server_https.rs and client_https.rs fit as long as the library takes the certificate for valid. -/
theorem https_matching {now : Nat} (h1 : Time.unix 2023 3 9 10 18 12 ≤ now) (h2 : now ≤ Time.unix 2024 3 7 10 18 12) (kc ks : List Int) :
    Matching ⟨⟨some localhost, none, none, some (ascii "keylog.txt")⟩, kc, now⟩
      ⟨⟨ownKey, ⟨Spec.X509.certificate ownTbs ownR ownS, none⟩, none, none, some (ascii "keylog.txt"), none, .urandom⟩, ks, now⟩ where
  prng := rfl
  name := fun a b _ h => by cases h
  utf8 := localhost_ok
  size := by
    show (Spec.X509.certificate ownTbs ownR ownS).length ≤ 16000
    decide +kernel
  server := by
    obtain ⟨x, hx, _⟩ := own_identity
    exact ⟨x, identity_at hx (by rw [own_valid hx.parsed, decide_eq_true ⟨h1, h2⟩])⟩
  auth := fun c h => by cases h
  other := fun c h => by cases h

/-- Likewise those of server_client_auth.rs and client_client_auth.rs. -/
theorem auth_matching {now : Nat} (h1 : Time.unix 2023 3 16 18 3 52 ≤ now) (h2 : now ≤ Time.unix 2024 3 7 10 18 12) :
    ∃ ca x, Certificate.fromRawX509 (Spec.X509.certificate caTbs caR caS) = .ok ca ∧ X509.fromRaw (Spec.X509.certificate otsmrTbs otsmrR otsmrS) = .ok x ∧
      ∀ kc ks : List Int,
        Matching ⟨⟨some localhost, some ⟨Spec.X509.certificate otsmrTbs otsmrR otsmrS, some x⟩, some otsmrKey, some (ascii "keylog.txt")⟩, kc, now⟩
          ⟨⟨ownKey, ⟨Spec.X509.certificate ownTbs ownR ownS, none⟩, some ca, some isOtsmr, some (ascii "./examples/src/bin/config/keylog.txt"), none, .urandom⟩, ks, now⟩ := by
  obtain ⟨ca, y, hca, hy, hs, hname⟩ := otsmr_identity
  obtain ⟨x, hx, _⟩ := own_identity
  have t1 : Time.unix 2023 3 9 10 18 12 ≤ Time.unix 2023 3 16 18 3 52 := by decide +kernel
  have t2 : Time.unix 2024 3 7 10 18 12 ≤ Time.unix 2024 3 14 18 3 52 := by decide +kernel
  have hotsmr : isOtsmr y = true := by
    unfold isOtsmr
    rw [hname [0x55, 0x04, 0x03] "commonName" (by decide)]
    have : Spec.X509.attributeValue otsmrTbs.subject [0x55, 0x04, 0x03] = some (ascii "otsmr") := by decide +kernel
    rw [this]
    rfl
  have hx' : Identity (Spec.X509.certificate ownTbs ownR ownS) ownKey now x := identity_at hx (by rw [own_valid hx.parsed, decide_eq_true ⟨t1.trans h1, h2⟩])
  have hy' : Identity (Spec.X509.certificate otsmrTbs otsmrR otsmrS) otsmrKey now y := identity_at hy (by rw [otsmr_valid hy.parsed, decide_eq_true ⟨h1, h2.trans t2⟩])
  have l1 : (Spec.X509.certificate ownTbs ownR ownS).length ≤ 1800 := by decide +kernel
  have l2 : (Spec.X509.certificate otsmrTbs otsmrR otsmrS).length ≤ 3900 := by decide +kernel
  generalize Spec.X509.certificate otsmrTbs otsmrR otsmrS = raw at *
  refine ⟨ca, y, hca, hy.parsed, fun kc ks => ⟨rfl, fun a b _ h => (by cases h), localhost_ok, Nat.le_trans l1 (by decide), ⟨x, hx'⟩, ?_, ?_⟩⟩
  · intro c h
    obtain rfl := Option.some.inj h
    exact ⟨_, _, y, rfl, rfl, hy', l2, hs, fun f hf => by obtain rfl := Option.some.inj hf; exact hotsmr⟩
  · intro c h
    obtain rfl := Option.some.inj h
    show raw.length + 400 ≤ 2 ^ 24
    omega

end ShippedProof

open ShippedProof

/-- C98 up to a day before the server's certificate ends, for random values and arrivals as in `C97_page_partial`. Missing: the last day, on which the
client rejects the certificate (`C98_last_day`), and what is missing in C97. -/
theorem C98_shipped_partial : C98_for (fun share => share.getD 0 0 ≠ 0) (fun v => 2 ^ 248 ≤ v)
    (fun handshake data incoming => ∃ a, Tls13.Pieces 2048 [] handshake a ∧ incoming = a ++ data)
    (fun handshake data incoming => ∃ a, Tls13.Delivers 4096 handshake a ∧ incoming = a ++ data)
    (Time.unix 2024 3 7 10 18 12) := by
  intro now hlast
  constructor
  · intro hfirst
    exact ⟨_, _, https_server, https_client, fun kc ks crng srng q hq h1 h2 hsig => C97_page_partial _ _ _ _ _ _ q (https_matching hfirst hlast kc ks) rfl hq h1 h2 hsig
      ((Utf8Proof.utf8Valid_iff _).1 (by decide +kernel)) (by decide +kernel), pages.1⟩
  · intro hfirst
    obtain ⟨ca, x, hca, hx, hm⟩ := auth_matching hfirst hlast
    exact ⟨_, _, auth_server hca, auth_client hx, fun kc ks crng srng q hq h1 h2 hsig => C97_page_partial _ _ _ _ _ _ q (hm kc ks) rfl hq h1 h2 hsig
      ((Utf8Proof.utf8Valid_iff _).1 (by decide +kernel)) (by decide +kernel), pages.2⟩

/-- C98, the last day: from 2024-03-07 10:18:13 on no connection of any client completes in which the certificate shown is the repository's server.cert,
although it is valid until 2024-03-08 10:18:12. -/
theorem C98_last_day (env : ClientEnv) (reads : List Bytes) (sock : Socket) (s : TlsStream) (r : ClientRun) (hc : ClientCompleted env reads sock s r)
    (hlate : Time.unix 2024 3 7 10 18 12 < env.now) :
    ∃ ee cm cv raw x, r.shown = opening ee r.requests ++ cm ++ cv ∧ ServerCertificateShown env cm raw x ∧ raw ≠ Spec.X509.certificate ownTbs ownR ownS := by
  obtain ⟨ee, cm, cv, raw, x, h1, h2, _⟩ := hc.shown
  refine ⟨ee, cm, cv, raw, x, h1, h2, ?_⟩
  rintro rfl
  obtain ⟨_, _, _, _, _, _, hx, hv⟩ := h2
  rw [own_valid hx, decide_eq_false (by omega)] at hv
  cases hv

/-- `C98_last_day` is about something: on 2024-03-07 at 10:18:13 the client completes a connection to a server that has the other certificate of the
repository, which ends a week later. -/
example : ∃ (env : ClientEnv) (reads : List Bytes) (sock : Socket) (s : TlsStream) (h : Option ClientHandshake) (r : ClientRun),
    env.now = Time.unix 2024 3 7 10 18 12 + 1 ∧ ClientConnection.connect env reads sock = (.ok s, h) ∧ ClientCompleted env reads sock s r := by
  obtain ⟨_, y, _, hy, _, _⟩ := otsmr_identity
  have hy' : Identity (Spec.X509.certificate otsmrTbs otsmrR otsmrS) otsmrKey (Time.unix 2024 3 7 10 18 12 + 1) y :=
    identity_at hy (by rw [otsmr_valid hy.parsed, decide_eq_true (by decide +kernel)])
  have l1 : (Spec.X509.certificate otsmrTbs otsmrR otsmrS).length ≤ 1800 := by decide +kernel
  generalize Spec.X509.certificate otsmrTbs otsmrR otsmrS = raw at *
  generalize Time.unix 2024 3 7 10 18 12 + 1 = now at *
  have hm : Matching ⟨⟨some localhost, none, none, none⟩, [], now⟩ ⟨⟨otsmrKey, ⟨raw, none⟩, none, none, none, none, .urandom⟩, [], now⟩ :=
    ⟨rfl, fun a b _ h => (by cases h), localhost_ok, Nat.le_trans l1 (by decide), ⟨y, hy'⟩, fun c h => (by cases h), fun c h => (by cases h)⟩
  obtain ⟨q, hq, e1, e2⟩ := example_draws none none
  have a1 : (publicShare q.clientKey).getD 0 0 ≠ 0 := by rw [e1]; exact example_shares.1
  have a2 : (publicShare q.serverKey).getD 0 0 ≠ 0 := by rw [e2]; exact example_shares.2
  obtain ⟨kc, ks, g1, g2, g3⟩ := PairProof.signed_exists _ _ _ _ q hm ⟨hq.client, hq.server, hq.secret⟩ a1 a2
  obtain ⟨r, rng, auth, ws, cws, R⟩ := PairProof.runs g1 g2 a1 a2 g3
  obtain ⟨s, h, r', k1, k2, _⟩ := AgreeProof.run_completed R l1 (fun c h => by cases h) (fun n h => by have := (localhost_ok n h).2; omega)
  exact ⟨_, _, _, s, h, r', rfl, k1, k2⟩

/-- The random values of the examples, on the first of June 2023. -/
theorem C98_example : ∃ sc cc, serverHttpsConfig (some serverCert) (some serverKey) = .ok sc ∧ clientHttpsConfig = .ok cc ∧ ∃ kc ks : List Int, ∃ q : Draws,
    Matching ⟨cc, kc, june2023⟩ ⟨sc, ks, june2023⟩ ∧ q.From ⟨sc, ks, june2023⟩ [zeros 100, zeros 100, zeros 100] [zeros 100, oneRead, zeros 100] ∧
    (publicShare q.clientKey).getD 0 0 ≠ 0 ∧ (publicShare q.serverKey).getD 0 0 ≠ 0 ∧ Signed (fun v => 2 ^ 248 ≤ v) q ⟨cc, kc, june2023⟩ ⟨sc, ks, june2023⟩ ∧
    sc.clientCertCa = none ∧ cc.serverName = some (ascii "localhost") := by
  have hm := https_matching (now := june2023) (by decide +kernel) (by decide +kernel) [] []
  obtain ⟨q, hq, e1, e2⟩ := example_draws none none
  have a1 : (publicShare q.clientKey).getD 0 0 ≠ 0 := by rw [e1]; exact example_shares.1
  have a2 : (publicShare q.serverKey).getD 0 0 ≠ 0 := by rw [e2]; exact example_shares.2
  obtain ⟨kc, ks, g1, g2, g3⟩ := PairProof.signed_exists _ _ _ _ q hm ⟨hq.client, hq.server, hq.secret⟩ a1 a2
  exact ⟨_, _, https_server, https_client, [kc], [ks], q, g1, g2, a1, a2, g3, rfl, rfl⟩

/-- The same for the example with client authentication: what `C98_shipped_partial` assumes of the random values is met. -/
theorem C98_auth_example : ∃ sc cc, serverAuthConfig (some caCert) (some serverCert) (some serverKey) = .ok sc ∧
    clientAuthConfig (some clientSignedCert) (some clientKey) = .ok cc ∧ ∃ kc ks : List Int, ∃ q : Draws,
    q.From ⟨sc, ks, june2023⟩ [zeros 100, zeros 100, zeros 100] [zeros 100, oneRead, zeros 100] ∧
    (publicShare q.clientKey).getD 0 0 ≠ 0 ∧ (publicShare q.serverKey).getD 0 0 ≠ 0 ∧ Signed (fun v => 2 ^ 248 ≤ v) q ⟨cc, kc, june2023⟩ ⟨sc, ks, june2023⟩ := by
  obtain ⟨ca, x, hca, hx, hm⟩ := auth_matching (now := june2023) (by decide +kernel) (by decide +kernel)
  obtain ⟨q, hq, e1, e2⟩ := example_draws (some ca) none
  have a1 : (publicShare q.clientKey).getD 0 0 ≠ 0 := by rw [e1]; exact example_shares.1
  have a2 : (publicShare q.serverKey).getD 0 0 ≠ 0 := by rw [e2]; exact example_shares.2
  obtain ⟨kc, ks, _, g2, g3⟩ := PairProof.signed_exists _ _ _ _ q (hm [] []) ⟨hq.client, hq.server, hq.secret⟩ a1 a2
  exact ⟨_, _, auth_server hca, auth_client hx, [kc], [ks], q, g2, a1, a2, g3⟩

/-- C98 in full is false even in June 2023: the client's Finished and its request may arrive in one read, and then the page is never sent. -/
theorem C98_false : ¬ C98_statement := by
  intro h
  obtain ⟨sc', cc', e1', e2', hv, -⟩ := (h june2023 (by decide +kernel)).1 (by decide +kernel)
  obtain ⟨sc, cc, e1, e2, kc, ks, q, hm, hq, a1, a2, hs, hca, hn⟩ := C98_example
  obtain rfl := Res.ok.inj (e1.symm.trans e1')
  obtain rfl := Res.ok.inj (e2.symm.trans e2')
  refine C97_cut_lost localhost helloWorld _ _ _ _ q hm hn hca hq a1 a2 hs (hv kc ks _ _ q hq trivial trivial ⟨?_, ?_⟩)
  · obtain ⟨a, sig, b, _⟩ := hs.server
    exact ⟨a, sig, b, trivial, trivial⟩
  · intro flight ca cert key c1 c2 c3 c4
    obtain ⟨a, sig, b, _⟩ := hs.client flight ca cert key c1 c2 c3 c4
    exact ⟨a, sig, b, trivial, trivial⟩

end ATLS
