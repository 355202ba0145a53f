import Verif.Model.Certificate
import Verif.Spec.Certificate
import Verif.Props.Ec
import Verif.Props.Der
import Verif.Props.Hash
import Verif.Props.Time
import Verif.Props.Handshake
import Verif.Props.X509
/-
C54, C69, C70: the Certificate and CertificateVerify messages.
-/
namespace ATLS
open ATLS.Model ATLS.Spec

/-! ### C54 -/

/-- The label the library passes for each end. -/
def roleLabel : Tls13.Role → Bytes
  | .server => ascii "server"
  | .client => ascii "client"

namespace CertProof

theorem ascii_cat (a b : String) : ascii (a ++ b) = ascii a ++ ascii b := by simp [ascii]

theorem content_eq (ts : TsHash) (role : Tls13.Role) :
    Certificate.verifyContent ts (roleLabel role) = Tls13.verifyContent role ts.finalize := by
  have e : ∀ r, ascii "TLS 1.3, " ++ roleLabel r ++ ascii " CertificateVerify" = Tls13.contextString r := by
    intro r
    cases r
    · rw [roleLabel, ← ascii_cat, ← ascii_cat]; rfl
    · rw [roleLabel, ← ascii_cat, ← ascii_cat]; rfl
  unfold Certificate.verifyContent Tls13.verifyContent
  rw [← e role]
  simp only [List.append_assoc]

theorem context_length (r : Tls13.Role) : (Tls13.contextString r).length = 33 := by
  cases r <;> (simp only [Tls13.contextString, ascii, List.length_map]; rfl)

theorem context_ne : Tls13.contextString .client ≠ Tls13.contextString .server := by
  unfold Tls13.contextString ascii
  decide

end CertProof
open CertProof

/-- C54: the content the library signs and verifies is RFC 8446 4.4.3's, and contents for different ends or different transcript hashes differ. -/
theorem C54_content :
    (∀ (ts : TsHash) (role : Tls13.Role), Certificate.verifyContent ts (roleLabel role) = Tls13.verifyContent role ts.finalize) ∧
    (∀ (ts ts' : TsHash) (role role' : Tls13.Role),
      Certificate.verifyContent ts (roleLabel role) = Certificate.verifyContent ts' (roleLabel role') ↔ role = role' ∧ ts.finalize = ts'.finalize) := by
  refine ⟨content_eq, ?_⟩
  intro ts ts' role role'
  rw [content_eq, content_eq]
  unfold Tls13.verifyContent
  constructor
  · intro h
    rw [List.append_assoc, List.append_assoc, List.append_assoc, List.append_assoc] at h
    have h1 := List.append_cancel_left h
    obtain ⟨h2, h3⟩ := List.append_inj h1 (by rw [context_length, context_length])
    refine ⟨?_, List.append_cancel_left h3⟩
    cases role <;> cases role'
    · rfl
    · exact absurd h2 context_ne
    · exact absurd h2.symm context_ne
    · rfl
  · rintro ⟨rfl, h⟩
    rw [h]

/-- The example of RFC 8446 4.4.3 for the server and the transcript hash 01..01. -/
example : (Tls13.verifyContent .server (List.replicate 32 1#8)).length = 130 := by
  simp only [Tls13.verifyContent, List.length_append, List.length_replicate, context_length, List.length_singleton]

/-! ### C69: CertificateVerify -/

/-- What the library requires of a CertificateVerify message before it goes on: ECDSA with P-256 and SHA-256, a signature of the stated length that
the certificate's key accepts for the transcript. -/
def Verified (c : Certificate) (role : Tls13.Role) (ts : TsHash) (body : Bytes) : Prop :=
  ∃ sig size, (slice body 0 2 : Res TlsError Bytes) = .ok [0x04#8, 0x03#8] ∧ Signature.fromDer (body.drop 4) = .ok (sig, size) ∧
    (slice body 2 4 : Res TlsError Bytes) = .ok (beBytes 2 size) ∧ c.isCertificateValid sig ts (roleLabel role) = .ok true

/-- C69 for the signatures satisfying `P`: what the holder of the key of a certificate signs is RFC 8446's message and accepted by the peer. -/
def C69_for (P : Int → Prop) : Prop :=
  ∀ (d : Int) (nonces : List Int) (ts : TsHash) (role : Tls13.Role) (c : Certificate) (x : X509) (pk : PublicKey) (body : Bytes),
    ¬ (P256.n : Int) ∣ d → (∀ k ∈ nonces, 0 ≤ k) → (⟨.secp256r1, d⟩ : PrivateKey).getPublicKey = .ok pk →
    c.x509 = some x → x.getPublicKey = .ok pk →
    (∀ sig, Ecdsa.sign nonces ⟨.secp256r1, d⟩ (sha256 (Certificate.verifyContent ts (roleLabel role))) = .ok (some sig) → P sig.r ∧ P sig.s) →
    Certificate.getCertificateVerifyForHandshake nonces ⟨.secp256r1, d⟩ ts (roleLabel role) = .ok body →
    Verified c role ts body ∧ ∃ sig, body = Tls13.certificateVerifyMessage 0x0403 sig

/-- C69 in full. -/
def C69_statement : Prop := C69_for fun _ => True

namespace CertProof

theorem finalize_le (ts : TsHash) : ts.finalize.length ≤ 64 := by
  cases ts <;> (unfold TsHash.finalize; simp only []; rw [finalize_length]; decide)

theorem sign_of_body {nonces : List Int} {key : PrivateKey} {ts : TsHash} {label body : Bytes}
    (h : Certificate.getCertificateVerifyForHandshake nonces key ts label = .ok body) :
    ∃ sig der, Ecdsa.sign nonces key (sha256 (Certificate.verifyContent ts label)) = .ok (some sig) ∧ sig.toDer = .ok der ∧
      body = [0x04#8, 0x03#8, BitVec.ofNat 8 (der.length >>> 8), BitVec.ofNat 8 der.length] ++ der := by
  unfold Certificate.getCertificateVerifyForHandshake at h
  obtain ⟨s, h1, h⟩ := Res.bind_eq_ok.1 h
  obtain ⟨sig, h2, h⟩ := Res.bind_eq_ok.1 h
  obtain ⟨der, h3, h⟩ := Res.bind_eq_ok.1 h
  cases h
  refine ⟨sig, der, ?_, h3, rfl⟩
  cases s with
  | none => cases h2
  | some s' =>
    cases h2
    cases hs : Ecdsa.sign nonces key (sha256 (Certificate.verifyContent ts label)) with
    | ok o => rw [hs] at h1; cases h1; rfl
    | err e => rw [hs] at h1; cases h1
    | panic => rw [hs] at h1; cases h1

end CertProof

/-- C69 when both numbers of the signature have a full 32 bytes (255 of 256 each). Missing: shorter ones are encoded wrongly and refused
(`C69_false`). -/
theorem C69_accepted_partial : C69_for fun v => 2 ^ 248 ≤ v := by
  intro d nonces ts role c x pk body hd hn hpk hx hk hP hb
  obtain ⟨sig, der, h1, h2, rfl⟩ := sign_of_body hb
  obtain ⟨pk', h3, h4, h5, h6, h7, h8⟩ := C29_sign_verify d hd _ nonces hn sig h1
  rw [h3] at hpk
  cases hpk
  obtain ⟨hr, hs⟩ := hP sig h1
  obtain ⟨s, r⟩ := sig
  obtain ⟨r', rfl⟩ := Int.eq_ofNat_of_zero_le (show 0 ≤ r by simp only [] at h5; omega)
  obtain ⟨s', rfl⟩ := Int.eq_ofNat_of_zero_le (show 0 ≤ s by simp only [] at h7; omega)
  simp only [] at h5 h6 h7 h8 hr hs
  obtain ⟨e1, e2⟩ := C31_der_partial r' s' (by omega) (by exact_mod_cast h6) (by omega) (by exact_mod_cast h8) (by exact_mod_cast hr) (by exact_mod_cast hs)
  have e3 := e2 der [] h2
  rw [List.append_nil] at e3
  have hl : [BitVec.ofNat 8 (der.length >>> 8), BitVec.ofNat 8 der.length] = beBytes 2 der.length := by
    rw [WireProof.beBytes2, Nat.shiftRight_eq_div_pow]
  refine ⟨⟨_, _, ?_, e3, ?_, ?_⟩, der, ?_⟩
  · unfold slice
    rw [if_pos ⟨by omega, by simp⟩]
    rfl
  · unfold slice
    rw [if_pos ⟨by omega, by simp⟩, ← hl]
    rfl
  · unfold Certificate.isCertificateValid
    rw [hx]
    simp only [Res.unwrap, Res.ok_bind, hk]
    rw [h4]
    rfl
  · unfold Tls13.certificateVerifyMessage
    rw [← hl]
    rfl

/-- C69, soundness: a message is accepted only if it carries an ECDSA signature by the certificate's key over RFC 8446's content. -/
theorem C69_sound (c : Certificate) (x : X509) (role : Tls13.Role) (ts : TsHash) (body : Bytes)
    (hx : c.x509 = some x) (h : Verified c role ts body) :
    ∃ (px py : Nat) (sig : Signature) (size : Nat), x.getPublicKey = .ok ⟨⟨px, py⟩, Curve.secp256r1⟩ ∧
      Signature.fromDer (body.drop 4) = .ok (sig, size) ∧
      Spec.Ecdsa.Accepts ((px : Int), (py : Int)) sig.r sig.s (Spec.Ecdsa.hashInt (Spec.Sha2.sha256 (Tls13.verifyContent role ts.finalize))) := by
  obtain ⟨sig, size, _, h2, _, h4⟩ := h
  unfold Certificate.isCertificateValid at h4
  rw [hx] at h4
  simp only [Res.unwrap, Res.ok_bind] at h4
  cases hk : x.getPublicKey with
  | panic => rw [hk] at h4; cases h4
  | err e => rw [hk] at h4; cases h4
  | ok pk =>
    rw [hk] at h4
    simp only [] at h4
    have hp : ∃ px py : Nat, pk = ⟨⟨px, py⟩, Curve.secp256r1⟩ := by
      unfold Model.X509.getPublicKey at hk
      split_ifs at hk
      obtain ⟨params, _, hk⟩ := Res.bind_eq_ok.1 hk
      split_ifs at hk
      obtain ⟨b, _, hk⟩ := Res.bind_eq_ok.1 hk
      split_ifs at hk
      obtain ⟨px, _, hk⟩ := Res.bind_eq_ok.1 hk
      obtain ⟨py, _, hk⟩ := Res.bind_eq_ok.1 hk
      cases hk
      exact ⟨_, _, rfl⟩
    obtain ⟨px, py, rfl⟩ := hp
    have hl : (Tls13.verifyContent role ts.finalize).length < 2 ^ 53 := by
      simp only [Tls13.verifyContent, List.length_append, List.length_replicate, context_length, List.length_singleton]
      have := finalize_le ts
      omega
    rw [content_eq, (C06_sha256_fips _ hl).1] at h4
    obtain ⟨s, r⟩ := sig
    obtain ⟨ans, g1, g2⟩ := C30_fips px py s r (by omega) (by omega) (Spec.Sha2.sha256 (Tls13.verifyContent role ts.finalize)) (by
      rw [← (C06_sha256_fips _ hl).1, (C06_sha256_fips _ hl).2])
    refine ⟨px, py, ⟨s, r⟩, size, rfl, h2, ?_⟩
    rw [g1] at h4
    cases h4
    exact g2.1 rfl

/-- A certificate with the public key G, whose private key is 1. -/
def keyOneX509 : X509 :=
  ⟨none, 0, ⟨.ecdsaWithSha256, none⟩, ⟨[], none⟩, ⟨none, none⟩, ⟨[], none⟩, ⟨.ecPublicKey, some "prime256v1"⟩,
    [4#8] ++ beBytes 32 0x6b17d1f2e12c4247f8bce6e563a440f277037d812deb33a0f4a13945d898c296 ++
      beBytes 32 0x4fe342e2fe1a7f9b8ee7eb4a7c0f9e162bce33576b315ececbb6406837bf51f5, 0, .ecdsaWithSha256, none⟩

namespace CertProof

theorem server_context : Tls13.contextString .server = beBytes 33 0x544c5320312e332c20736572766572204365727469666963617465566572696679 := by
  unfold Tls13.contextString
  decide

/-- The digest of the server's content for the empty transcript. -/
theorem server_digest : sha256 (Certificate.verifyContent (TsHash.new .sha256) (roleLabel .server)) = beBytes 32 0x922dff4b3fd94f97f18533610840eddc20ff77873972cca7ace14bb8509c0978 := by
  rw [content_eq]
  unfold Tls13.verifyContent
  rw [server_context]
  decide +kernel

theorem short_sign : Ecdsa.sign [379] ⟨.secp256r1, 1⟩ (beBytes 32 0x922dff4b3fd94f97f18533610840eddc20ff77873972cca7ace14bb8509c0978) =
    .ok (some ⟨0xbde92c058da0a373283f57fb23f8eb8044c2791bfbb04865dbfbeafc714f6b9, 0x5543894af3d00ed7d740abdbd75c96b06877b787db5f70eea78b90a8d7c00a⟩) := by decide +kernel

end CertProof

/-- C69 is false: the nonce 379 gives a signature whose `r` is below 2^248; the server's CertificateVerify is refused by the client. -/
theorem C69_false : ¬ C69_statement := by
  intro h
  have hder : Signature.toDer ⟨0xbde92c058da0a373283f57fb23f8eb8044c2791bfbb04865dbfbeafc714f6b9, 0x5543894af3d00ed7d740abdbd75c96b06877b787db5f70eea78b90a8d7c00a⟩ =
      .ok (beBytes 70 0x304402205543894af3d00ed7d740abdbd75c96b06877b787db5f70eea78b90a8d7c00a0002200bde92c058da0a373283f57fb23f8eb8044c2791bfbb04865dbfbeafc714f6b9) := by
    decide +kernel
  have hbody : Certificate.getCertificateVerifyForHandshake [379] ⟨.secp256r1, 1⟩ (TsHash.new .sha256) (roleLabel .server) =
      .ok ([0x04#8, 0x03#8, 0x00#8, 0x46#8] ++
        beBytes 70 0x304402205543894af3d00ed7d740abdbd75c96b06877b787db5f70eea78b90a8d7c00a0002200bde92c058da0a373283f57fb23f8eb8044c2791bfbb04865dbfbeafc714f6b9) := by
    unfold Certificate.getCertificateVerifyForHandshake
    simp only [server_digest, short_sign]
    simp only [Res.mapErr, Res.ok_bind, Res.unwrap, hder]
    rfl
  obtain ⟨⟨sig, size, _, h2, _, h4⟩, _⟩ := h 1 [379] (TsHash.new .sha256) .server ⟨[], some keyOneX509⟩ keyOneX509
    ⟨Curve.secp256r1.g, .secp256r1⟩ _ (by decide +kernel) (by simp) (by decide +kernel) rfl (by decide +kernel) (fun _ _ => ⟨trivial, trivial⟩) hbody
  have hd : Signature.fromDer (([0x04#8, 0x03#8, 0x00#8, 0x46#8] ++
      beBytes 70 0x304402205543894af3d00ed7d740abdbd75c96b06877b787db5f70eea78b90a8d7c00a0002200bde92c058da0a373283f57fb23f8eb8044c2791bfbb04865dbfbeafc714f6b9).drop 4) =
        .ok (⟨0xbde92c058da0a373283f57fb23f8eb8044c2791bfbb04865dbfbeafc714f6b9, 0x5543894af3d00ed7d740abdbd75c96b06877b787db5f70eea78b90a8d7c00a00⟩, 70) := by decide +kernel
  rw [hd] at h2
  cases h2
  have hv : Certificate.isCertificateValid ⟨[], some keyOneX509⟩
      ⟨0xbde92c058da0a373283f57fb23f8eb8044c2791bfbb04865dbfbeafc714f6b9, 0x5543894af3d00ed7d740abdbd75c96b06877b787db5f70eea78b90a8d7c00a00⟩
      (TsHash.new .sha256) (roleLabel .server) = .ok false := by
    unfold Certificate.isCertificateValid
    rw [server_digest]
    decide +kernel
  rw [hv] at h4
  cases h4

/-- The hypotheses of `C69_accepted_partial` are met: with the nonce 1 both numbers have 32 bytes. -/
example : ∃ body, Certificate.getCertificateVerifyForHandshake [1] ⟨.secp256r1, 1⟩ (TsHash.new .sha256) (roleLabel .server) = .ok body ∧
    Verified ⟨[], some keyOneX509⟩ .server (TsHash.new .sha256) body := by
  have hs : Ecdsa.sign [1] ⟨.secp256r1, 1⟩ (beBytes 32 0x922dff4b3fd94f97f18533610840eddc20ff77873972cca7ace14bb8509c0978) =
      .ok (some ⟨0xfd45d13e210591dfea421a466be52ece9802f508675e0048a18284fe2934cc0e, 0x6b17d1f2e12c4247f8bce6e563a440f277037d812deb33a0f4a13945d898c296⟩) := by decide +kernel
  have hbody : Certificate.getCertificateVerifyForHandshake [1] ⟨.secp256r1, 1⟩ (TsHash.new .sha256) (roleLabel .server) =
      .ok ([0x04#8, 0x03#8, 0x00#8, 0x47#8] ++
        beBytes 71 0x304502206b17d1f2e12c4247f8bce6e563a440f277037d812deb33a0f4a13945d898c296022100fd45d13e210591dfea421a466be52ece9802f508675e0048a18284fe2934cc0e) := by
    have hder : Signature.toDer ⟨0xfd45d13e210591dfea421a466be52ece9802f508675e0048a18284fe2934cc0e, 0x6b17d1f2e12c4247f8bce6e563a440f277037d812deb33a0f4a13945d898c296⟩ =
        .ok (beBytes 71 0x304502206b17d1f2e12c4247f8bce6e563a440f277037d812deb33a0f4a13945d898c296022100fd45d13e210591dfea421a466be52ece9802f508675e0048a18284fe2934cc0e) := by
      decide +kernel
    unfold Certificate.getCertificateVerifyForHandshake
    simp only [server_digest, hs]
    simp only [Res.mapErr, Res.ok_bind, Res.unwrap, hder]
    rfl
  refine ⟨_, hbody, (C69_accepted_partial 1 [1] (TsHash.new .sha256) .server ⟨[], some keyOneX509⟩ keyOneX509
    ⟨Curve.secp256r1.g, .secp256r1⟩ _ (by decide +kernel) (by simp) (by decide +kernel) rfl (by decide +kernel) ?_ hbody).1⟩
  intro sig hsig
  rw [server_digest, hs] at hsig
  cases hsig
  decide +kernel

/-! ### C70: the Certificate message -/

/-- C70, writing: the message built for a certificate is RFC 8446's with that certificate as the only entry. -/
theorem C70_built (c : Certificate) (context : Bytes) :
    c.getCertificateForHandshake (beBytes 1 context.length ++ context) = Tls13.certificateMessage context [(c.raw, [])] := by
  unfold Certificate.getCertificateForHandshake Tls13.certificateMessage
  have e : ([(c.raw, ([] : Bytes))].map Tls13.certificateEntry).flatten = beBytes 3 c.raw.length ++ (c.raw ++ [0x00#8, 0x00#8]) := by
    simp [Tls13.certificateEntry, beBytes]
  have el : (beBytes 3 c.raw.length ++ (c.raw ++ [0x00#8, 0x00#8])).length = c.raw.length + 5 := by
    simp only [List.length_append, beBytes_length, List.length_cons, List.length_nil]
    omega
  rw [e, el]
  simp only [WireProof.beBytes3, Nat.shiftRight_eq_div_pow, List.append_assoc, List.cons_append, List.nil_append]

/-- C70, reading: the certificate taken from a Certificate message is the first entry, whatever follows it in the chain and whatever its
extensions; it is taken exactly if it parses and is in its validity period; without an entry the answer is CertificateRequired. -/
theorem C70_read (now : Nat) (context : Bytes) (hc : context.length < 256) :
    Certificate.fromHello now (Tls13.certificateMessage context []) = .err .certificateRequired ∧
    ∀ (leaf ext : Bytes) (chain : List (Bytes × Bytes)), (((leaf, ext) :: chain).map Tls13.certificateEntry).flatten.length < 2 ^ 24 →
      (∀ x, X509.fromRaw leaf = .ok x → x.validity.isValid now = .ok true (ε := TlsError) →
        Certificate.fromHello now (Tls13.certificateMessage context ((leaf, ext) :: chain)) = .ok [⟨leaf, some x⟩]) ∧
      (∀ x, X509.fromRaw leaf = .ok x → x.validity.isValid now = .ok false (ε := TlsError) →
        Certificate.fromHello now (Tls13.certificateMessage context ((leaf, ext) :: chain)) = .err .certificateExpired) ∧
      (∀ e, X509.fromRaw leaf = .err e →
        Certificate.fromHello now (Tls13.certificateMessage context ((leaf, ext) :: chain)) = .err .decodeError) := by
  have h0 : ∀ rest : Bytes, idx (ε := TlsError) (beBytes 1 context.length ++ (context ++ rest)) 0 = .ok (BitVec.ofNat 8 context.length) := by
    intro rest
    simp [beBytes, idx]
  have hcl : (BitVec.ofNat 8 context.length).toNat = context.length := by simp; omega
  have b3 : ∀ n, n < 2 ^ 24 → (toU128BeFill (beBytes 3 n)).toNat = n := by
    intro n hn
    rw [DerProof.toU128BeFill_eq _ (by rw [beBytes_length]; omega), beNat_beBytes, Nat.mod_eq_of_lt (by norm_num at hn ⊢; exact hn)]
  constructor
  · unfold Certificate.fromHello Tls13.certificateMessage
    simp only [List.map_nil, List.flatten_nil, List.length_nil, List.append_nil, List.append_assoc]
    rw [h0]
    simp only [Res.ok_bind, hcl]
    have hs := WireProof.slice_mid (ε := TlsError) (n := 1 + context.length) (m := 1 + context.length + 3) (beBytes 1 context.length ++ context)
      (beBytes 3 0) [] (by simp [beBytes_length]) (by simp [beBytes_length])
    simp only [List.append_nil, List.append_assoc] at hs
    rw [hs]
    simp only [Res.ok_bind, b3 0 (by norm_num), if_true]
  · intro leaf ext chain hl
    have hle : leaf.length + 5 ≤ (((leaf, ext) :: chain).map Tls13.certificateEntry).flatten.length := by
      simp only [List.map_cons, List.flatten_cons, List.length_append, Tls13.certificateEntry, beBytes_length]
      omega
    obtain ⟨len, hlen⟩ : ∃ len, len = (((leaf, ext) :: chain).map Tls13.certificateEntry).flatten.length := ⟨_, rfl⟩
    rw [← hlen] at hl hle
    obtain ⟨tail, htail⟩ : ∃ tail, tail = ext ++ (chain.map Tls13.certificateEntry).flatten := ⟨_, rfl⟩
    have hm : Tls13.certificateMessage context ((leaf, ext) :: chain) =
        beBytes 1 context.length ++ (context ++ (beBytes 3 len ++ (beBytes 3 leaf.length ++ (leaf ++ (beBytes 2 ext.length ++ tail))))) := by
      unfold Tls13.certificateMessage
      rw [← hlen, htail]
      simp only [List.map_cons, List.flatten_cons, Tls13.certificateEntry, List.append_assoc]
    obtain ⟨n, hn⟩ : ∃ n, n = 1 + context.length := ⟨_, rfl⟩
    have hread : Certificate.fromHello now (Tls13.certificateMessage context ((leaf, ext) :: chain)) = (do
        let cert ← Certificate.fromRawX509 leaf
        let x ← Res.unwrap cert.x509
        let valid ← x.validity.isValid now
        if !valid then .err .certificateExpired else .ok [cert]) := by
      rw [hm]
      unfold Certificate.fromHello
      rw [h0]
      simp only [Res.ok_bind, hcl, ← hn]
      have hs1 := WireProof.slice_mid (ε := TlsError) (n := n) (m := n + 3) (beBytes 1 context.length ++ context)
        (beBytes 3 len) (beBytes 3 leaf.length ++ (leaf ++ (beBytes 2 ext.length ++ tail))) (by simp [beBytes_length, hn]) (by simp [beBytes_length])
      have hs2 := WireProof.slice_mid (ε := TlsError) (n := n + 3) (m := n + 3 + 3) (beBytes 1 context.length ++ (context ++ beBytes 3 len))
        (beBytes 3 leaf.length) (leaf ++ (beBytes 2 ext.length ++ tail)) (by simp [beBytes_length, hn]; omega) (by simp [beBytes_length])
      have hs3 := WireProof.slice_mid (ε := TlsError) (n := n + 3 + 3) (m := n + 3 + 3 + leaf.length)
        (beBytes 1 context.length ++ (context ++ (beBytes 3 len ++ beBytes 3 leaf.length)))
        leaf (beBytes 2 ext.length ++ tail) (by simp [beBytes_length, hn]; omega) rfl
      have hs4 := WireProof.slice_mid (ε := TlsError) (n := n + 3 + 3 + leaf.length) (m := n + 3 + 3 + leaf.length + 2)
        (beBytes 1 context.length ++ (context ++ (beBytes 3 len ++ (beBytes 3 leaf.length ++ leaf))))
        (beBytes 2 ext.length) tail (by simp [beBytes_length, hn]; omega) (by simp [beBytes_length])
      simp only [List.append_assoc] at hs1 hs2 hs3 hs4
      rw [hs1]
      simp only [Res.ok_bind, b3 len hl]
      rw [if_neg (by omega), hs2]
      simp only [Res.ok_bind, b3 leaf.length (by omega)]
      rw [hs3]
      simp only [Res.ok_bind]
      rw [hs4]
      simp only [Res.ok_bind]
    rw [hread]
    refine ⟨?_, ?_, ?_⟩
    · intro x h1 h2
      unfold Certificate.fromRawX509
      simp only [h1, Res.mapErr, Res.ok_bind, Res.unwrap, h2]
      rfl
    · intro x h1 h2
      unfold Certificate.fromRawX509
      simp only [h1, Res.mapErr, Res.ok_bind, Res.unwrap, h2]
      rfl
    · intro e h1
      unfold Certificate.fromRawX509
      simp only [h1, Res.mapErr, Res.err_bind]

/-- The certificate of the unit test in a message, in 2023 and in 2026 (it expired in 2024). -/
example : (∃ c, Certificate.fromHello 1690000000 (Tls13.certificateMessage [] [(Spec.X509.certificate ownTbs ownR ownS, [])]) = .ok [c]) ∧
    Certificate.fromHello 1790000000 (Tls13.certificateMessage [] [(Spec.X509.certificate ownTbs ownR ownS, [])]) = .err .certificateExpired := by
  have hf := X509Proof.fromRaw_certificate ownTbs (X509Proof.tbsOk X509Proof.own_wellFormed (by decide +kernel)) ownR ownS (by decide +kernel)
    (by decide +kernel) []
  rw [List.append_nil] at hf
  refine ⟨⟨_, ((C70_read 1690000000 [] (by simp)).2 _ [] [] (by decide +kernel)).1 _ hf (by decide +kernel)⟩,
    ((C70_read 1790000000 [] (by simp)).2 _ [] [] (by decide +kernel)).2.1 _ hf (by decide +kernel)⟩

end ATLS
