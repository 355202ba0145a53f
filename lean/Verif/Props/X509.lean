import Verif.Proof.X509
import Verif.Proof.Utf8
import Verif.Model.Certificate
import Verif.Props.Ec
import Verif.Props.Hash
import Verif.Spec.Sha2
/-
C50, C53, C68: X.509 certificates.
-/
namespace ATLS
open ATLS.Spec ATLS.Model ATLS.X509Proof ATLS.WireProof ATLS.DerProof

/-- The to-be-signed part of the certificate in the unit test utils/x509.rs:660. -/
def ownTbs : Spec.X509.Tbs where
  version := some 2
  serial := 0x612fe409659dfe39c6a2d685db2c71fbbfbec7d4
  sigAlg := .ecdsaWithSha256
  issuer := [⟨[0x55, 0x04, 0x06], 0x13, ascii "DE"⟩, ⟨[0x55, 0x04, 0x08], 0x0c, ascii "Some-State"⟩,
    ⟨[0x55, 0x04, 0x0a], 0x0c, ascii "Internet Widgits Pty Ltd"⟩, ⟨[0x55, 0x04, 0x03], 0x0c, ascii "anothertls.local"⟩]
  notBefore := ⟨2023, 3, 9, 10, 18, 12⟩
  notAfter := ⟨2024, 3, 8, 10, 18, 12⟩
  subject := [⟨[0x55, 0x04, 0x06], 0x13, ascii "DE"⟩, ⟨[0x55, 0x04, 0x08], 0x0c, ascii "Some-State"⟩,
    ⟨[0x55, 0x04, 0x0a], 0x0c, ascii "Internet Widgits Pty Ltd"⟩, ⟨[0x55, 0x04, 0x03], 0x0c, ascii "anothertls.local"⟩]
  key := Spec.X509.point 0x6eed2bfee88db30f90001b34f24ad85a96aedc7c01d175f81d6da2a3d96f29c8
    0x6d5e14735b63f2d579e067b503bb42c1d934f5b7316fa57a13d0454577d194e5
  extensions := some [
    0x30, 0x51, 0x30, 0x1d, 0x06, 0x03, 0x55, 0x1d, 0x0e, 0x04, 0x16, 0x04, 0x14, 0xa9, 0xd1, 0x35, 0x11, 0x8b, 0xc5, 0xc3,
    0xb7, 0x07, 0x6c, 0x62, 0x48, 0x16, 0x9e, 0x00, 0x87, 0xb5, 0xed, 0x5c, 0x00, 0x30, 0x1f, 0x06, 0x03, 0x55, 0x1d, 0x23,
    0x04, 0x18, 0x30, 0x16, 0x80, 0x14, 0xa9, 0xd1, 0x35, 0x11, 0x8b, 0xc5, 0xc3, 0xb7, 0x07, 0x6c, 0x62, 0x48, 0x16, 0x9e,
    0x00, 0x87, 0xb5, 0xed, 0x5c, 0x00, 0x30, 0x0f, 0x06, 0x03, 0x55, 0x1d, 0x13, 0x01, 0x01, 0xff, 0x04, 0x05, 0x30, 0x03,
    0x01, 0x01, 0xff]

@[inherit_doc ownTbs] def ownR : Nat := 0x372c31a1401b8dce99a61cd3ac7f83d4aec628085ecab625093ac72e628fd1d4
@[inherit_doc ownTbs] def ownS : Nat := 0xa28383292dc8d73f114f2c1694e4dffc51791aceca226cc83699b9467bbb78fc
/-- utils/x509.rs:660: the bytes of that certificate. -/
def ownBytes : Bytes :=
  beBytes 64 0x30820215308201bba0030201020214612fe409659dfe39c6a2d685db2c71fbbfbec7d4300a06082a8648ce3d0403023060310b30090603550406130244453113 ++
  beBytes 64 0x301106035504080c0a536f6d652d53746174653121301f060355040a0c18496e7465726e6574205769646769747320507479204c74643119301706035504030c ++
  beBytes 64 0x10616e6f74686572746c732e6c6f63616c301e170d3233303330393130313831325a170d3234303330383130313831325a3060310b3009060355040613024445 ++
  beBytes 64 0x3113301106035504080c0a536f6d652d53746174653121301f060355040a0c18496e7465726e6574205769646769747320507479204c74643119301706035504 ++
  beBytes 64 0x030c10616e6f74686572746c732e6c6f63616c3059301306072a8648ce3d020106082a8648ce3d030107034200046eed2bfee88db30f90001b34f24ad85a96ae ++
  beBytes 64 0xdc7c01d175f81d6da2a3d96f29c86d5e14735b63f2d579e067b503bb42c1d934f5b7316fa57a13d0454577d194e5a3533051301d0603551d0e04160414a9d135 ++
  beBytes 64 0x118bc5c3b7076c6248169e0087b5ed5c00301f0603551d23041830168014a9d135118bc5c3b7076c6248169e0087b5ed5c00300f0603551d130101ff04053003 ++
  beBytes 64 0x0101ff300a06082a8648ce3d04030203480030450220372c31a1401b8dce99a61cd3ac7f83d4aec628085ecab625093ac72e628fd1d4022100a28383292dc8d7 ++
  beBytes 25 0x3f114f2c1694e4dffc51791aceca226cc83699b9467bbb78fc

/-- The specification describes certificates as they are made: this is the one of the unit test, byte for byte. -/
example : Spec.X509.certificate ownTbs ownR ownS = ownBytes := by decide +kernel

namespace X509Proof

theorem tbsOk {t : Spec.X509.Tbs} {m : Nat} (h : t.WellFormed) (hs : t.encode.length < m) : TbsOk t m where
  version := h.version
  issuer := fun a ha => ⟨(h.issuer a ha).kind, (Utf8Proof.utf8Valid_iff _).2 (h.issuer a ha).text⟩
  subject := fun a ha => ⟨(h.subject a ha).kind, (Utf8Proof.utf8Valid_iff _).2 (h.subject a ha).text⟩
  notBefore := h.notBefore
  notAfter := h.notAfter
  key := by obtain ⟨x, y, _, _, hk⟩ := h.key; exact ⟨_, _, hk, by decide⟩
  size := hs

theorem curve_name {t : Spec.X509.Tbs} (h : t.WellFormed) : parseObjectIdentifier t.curve = "prime256v1" := by rw [h.curve, alg_curve]

theorem isText_ascii (s : Bytes) (h : s.all (fun b => b.toNat < 128) = true) : Utf8.IsText s := by
  refine (Utf8Proof.utf8Valid_iff _).1 (utf8_ascii s ?_)
  intro b hb
  simpa using List.all_eq_true.1 h b hb

theorem own_wellFormed : ownTbs.WellFormed where
  version := fun v h => by cases h; decide
  issuer := by
    intro a ha
    simp only [ownTbs, List.mem_cons, List.not_mem_nil, or_false] at ha
    rcases ha with rfl | rfl | rfl | rfl <;> exact ⟨by decide, isText_ascii _ (by decide), by decide⟩
  subject := by
    intro a ha
    simp only [ownTbs, List.mem_cons, List.not_mem_nil, or_false] at ha
    rcases ha with rfl | rfl | rfl | rfl <;> exact ⟨by decide, isText_ascii _ (by decide), by decide⟩
  notBefore := by unfold Spec.X509.DateTime.WellFormed Time.InCalendar; decide
  notAfter := by unfold Spec.X509.DateTime.WellFormed Time.InCalendar; decide
  curve := rfl
  key := ⟨_, _, by decide +kernel, by decide +kernel, rfl⟩

/-- The bytes hashed for the CA's signature. -/
theorem signed_slice (t : Spec.X509.Tbs) (h1 : 256 ≤ t.body.length) (h2 : t.body.length < 2 ^ 16) (hd rest : Bytes) (hh : hd.length = 4) :
    slice (ε := TlsError) (hd ++ (t.encode ++ rest)) 4 (4 + (t.body.length + 4)) = .ok t.encode := by
  have hl : t.encode.length = t.body.length + 4 := by
    unfold Spec.X509.Tbs.encode Der.sequence Der.tlv Der.length
    rw [if_neg (by omega), if_neg (by omega), if_pos h2]
    simp [beBytes_length]; omega
  exact slice_mid hd t.encode rest hh.symm (by rw [hl])

theorem getPublicKey_point (x : Model.X509) (px py : Nat) (hx : px < 2 ^ 256) (hy : py < 2 ^ 256)
    (ha : x.spkAlgorithm = ⟨.ecPublicKey, some "prime256v1"⟩) (hk : x.subjectPublicKey = Spec.X509.point px py) :
    x.getPublicKey = .ok ⟨⟨px, py⟩, Curve.secp256r1⟩ := by
  have e : (2 : Nat) ^ 256 = 256 ^ 32 := by norm_num
  unfold Model.X509.getPublicKey
  rw [ha, hk]
  have s1 : slice (ε := Unit) (Spec.X509.point px py) 1 33 = .ok (beBytes 32 px) :=
    slice_mid [4#8] (beBytes 32 px) (beBytes 32 py) rfl (by simp [beBytes_length])
  have s2 : slice (ε := Unit) (Spec.X509.point px py) 33 65 = .ok (beBytes 32 py) := by
    have := slice_mid (ε := Unit) (n := 33) (m := 65) (4#8 :: beBytes 32 px) (beBytes 32 py) [] (by simp [beBytes_length]) (by simp [beBytes_length])
    simpa [Spec.X509.point] using this
  have i0 : idx (ε := Unit) (Spec.X509.point px py) 0 = .ok 4#8 := rfl
  simp only [ne_eq, not_true_eq_false, if_false, Res.okOr, Res.ok_bind, if_true, i0, s1, s2, toIbigBe_eq, beNat_beBytes]
  rw [Nat.mod_eq_of_lt (by rw [← e]; exact hx), Nat.mod_eq_of_lt (by rw [← e]; exact hy)]

theorem header4 (body : Bytes) (h1 : 256 ≤ body.length) (h2 : body.length < 2 ^ 16) :
    ∃ hd : Bytes, hd.length = 4 ∧ Der.sequence body = hd ++ body := by
  refine ⟨0x30#8 :: 0x82#8 :: beBytes 2 body.length, by simp [beBytes_length], ?_⟩
  unfold Der.sequence Der.tlv Der.length
  rw [if_neg (by omega), if_neg (by omega), if_pos h2]
  simp

end X509Proof

open X509Proof

/-! ### C68 -/

/-- C68 for the to-be-signed parts satisfying `P`: an RFC 5280 certificate with a P-256 key and an ECDSA signature is read to its serial number,
validity period, names, key and signature, and the bytes whose signature is checked are the to-be-signed part. -/
def C68_for (P : Spec.X509.Tbs → Prop) : Prop :=
  ∀ (t : Spec.X509.Tbs) (r s x y : Nat), t.WellFormed → x < 2 ^ 256 → y < 2 ^ 256 → t.key = Spec.X509.point x y →
    (Spec.X509.certificate t r s).length < 2 ^ 16 → P t →
    ∃ c : Model.X509, Model.X509.fromRaw (Spec.X509.certificate t r s) = .ok c ∧
      c.serialNumber = t.serial ∧
      c.validity.notBefore = some ⟨t.notBefore.year, t.notBefore.month, t.notBefore.day, t.notBefore.hour, t.notBefore.minute, t.notBefore.second⟩ ∧
      c.validity.notAfter = some ⟨t.notAfter.year, t.notAfter.month, t.notAfter.day, t.notAfter.hour, t.notAfter.minute, t.notAfter.second⟩ ∧
      (∀ o nm, (o, nm) ∈ Spec.X509.attributeNames → c.issuer.get nm = Res.okOr .nameGet (Spec.X509.attributeValue t.issuer o)) ∧
      (∀ o nm, (o, nm) ∈ Spec.X509.attributeNames → c.subject.get nm = Res.okOr .nameGet (Spec.X509.attributeValue t.subject o)) ∧
      c.getPublicKey = .ok ⟨⟨x, y⟩, Curve.secp256r1⟩ ∧
      c.signature = some ⟨s, r⟩ ∧
      slice (ε := TlsError) (Spec.X509.certificate t r s) 4 (4 + c.tbsCertificateSize) = .ok t.encode

/-- C68 in full. -/
def C68_statement : Prop := C68_for fun _ => True

namespace X509Proof

theorem certificate_bounds (t : Spec.X509.Tbs) (r s : Nat) (h : (Spec.X509.certificate t r s).length < 2 ^ 16) :
    t.encode.length < 2 ^ 16 ∧ t.body.length + 2 ≤ t.encode.length ∧ Der.intLen r < 2 ^ 28 ∧ Der.intLen s < 2 ^ 28 ∧
      (t.encode ++ (t.sigAlg.encode ++ Spec.X509.bitString (Der.ecdsaSig r s))).length < 2 ^ 16 := by
  have l1 := tlv_length_gt 0x30#8 (t.encode ++ (t.sigAlg.encode ++ Spec.X509.bitString (Der.ecdsaSig r s)))
  have l2 := tlv_length_gt 0x03#8 (0#8 :: Der.ecdsaSig r s)
  have l3 := tlv_length_gt 0x30#8 (Der.integer r ++ Der.integer s)
  have l4 := tlv_length_gt 0x02#8 (beBytes (Der.intLen r) r)
  have l5 := tlv_length_gt 0x02#8 (beBytes (Der.intLen s) s)
  have l6 := tlv_length_gt 0x30#8 t.body
  have l7 := l1
  unfold Spec.X509.certificate Der.sequence at h
  unfold Spec.X509.Tbs.encode Der.sequence
  unfold Spec.X509.bitString Der.ecdsaSig Der.integer Spec.X509.Tbs.encode Der.sequence at *
  simp only [List.length_append, beBytes_length, List.length_cons] at *
  omega

theorem certificate_fields (t : Spec.X509.Tbs) (r s x y : Nat) (h : t.WellFormed) (hx : x < 2 ^ 256) (hy : y < 2 ^ 256)
    (hk : t.key = Spec.X509.point x y) (hl : (Spec.X509.certificate t r s).length < 2 ^ 16) (hP : 256 ≤ t.body.length) :
    ∃ c : Model.X509, Model.X509.fromRaw (Spec.X509.certificate t r s) = .ok c ∧
      c.serialNumber = t.serial ∧ c.validity = ⟨some (utcOf t.notBefore), some (utcOf t.notAfter)⟩ ∧
      (∀ o nm, (o, nm) ∈ Spec.X509.attributeNames → c.issuer.get nm = Res.okOr .nameGet (Spec.X509.attributeValue t.issuer o)) ∧
      (∀ o nm, (o, nm) ∈ Spec.X509.attributeNames → c.subject.get nm = Res.okOr .nameGet (Spec.X509.attributeValue t.subject o)) ∧
      c.getPublicKey = .ok ⟨⟨x, y⟩, Curve.secp256r1⟩ ∧ c.signature = some ⟨s, r⟩ ∧
      slice (ε := TlsError) (Spec.X509.certificate t r s) 4 (4 + c.tbsCertificateSize) = .ok t.encode := by
  obtain ⟨b1, b2, b3, b4, b5⟩ := certificate_bounds t r s hl
  have hf := fromRaw_certificate t (tbsOk h (by omega)) r s b3 b4 []
  rw [List.append_nil] at hf
  refine ⟨_, hf, rfl, rfl, ?_, ?_, getPublicKey_point _ x y hx hy (by simp only [curve_name h]) hk, rfl, ?_⟩
  · intro o nm hm
    exact get_name _ o nm hm fun a ha => (h.issuer a ha).oid
  · intro o nm hm
    exact get_name _ o nm hm fun a ha => (h.subject a ha).oid
  · obtain ⟨hd, h4, he⟩ := header4 (t.encode ++ (t.sigAlg.encode ++ Spec.X509.bitString (Der.ecdsaSig r s)))
      (by rw [List.length_append]; omega) b5
    unfold Spec.X509.certificate
    rw [he]
    exact signed_slice t hP (by omega) hd _ h4

end X509Proof

/-- C68 for to-be-signed parts of at least 256 bytes. Missing: shorter ones, of which the wrong bytes are hashed (`C68_false`). -/
theorem C68_fields_partial : C68_for fun t => 256 ≤ t.body.length := by
  intro t r s x y h hx hy hk hl hP
  obtain ⟨c, h1, h2, h3, h4⟩ := certificate_fields t r s x y h hx hy hk hl hP
  exact ⟨c, h1, h2, by rw [h3]; rfl, by rw [h3]; rfl, h4⟩

example : ownTbs.WellFormed ∧ (Spec.X509.certificate ownTbs ownR ownS).length < 2 ^ 16 ∧ 256 ≤ ownTbs.body.length :=
  ⟨own_wellFormed, by decide +kernel, by decide +kernel⟩

example : Spec.X509.attributeValue ownTbs.subject [0x55, 0x04, 0x03] = some (ascii "anothertls.local") := by decide +kernel

/-- A well-formed certificate with a short to-be-signed part. -/
def shortTbs : Spec.X509.Tbs where
  version := none
  serial := 1
  sigAlg := .ecdsaWithSha256
  issuer := [⟨[0x55, 0x04, 0x03], 0x0c, ascii "ca"⟩]
  notBefore := ⟨2023, 3, 9, 10, 18, 12⟩
  notAfter := ⟨2024, 3, 8, 10, 18, 12⟩
  subject := [⟨[0x55, 0x04, 0x03], 0x0c, ascii "me"⟩]
  key := Spec.X509.point P256.gx P256.gy
  extensions := none

namespace X509Proof

theorem short_wellFormed : shortTbs.WellFormed where
  version := fun v h => by cases h
  issuer := by
    intro a ha
    simp only [shortTbs, List.mem_cons, List.not_mem_nil, or_false] at ha
    subst ha
    exact ⟨by decide, isText_ascii _ (by decide), by decide⟩
  subject := by
    intro a ha
    simp only [shortTbs, List.mem_cons, List.not_mem_nil, or_false] at ha
    subst ha
    exact ⟨by decide, isText_ascii _ (by decide), by decide⟩
  notBefore := by unfold Spec.X509.DateTime.WellFormed Time.InCalendar; decide
  notAfter := by unfold Spec.X509.DateTime.WellFormed Time.InCalendar; decide
  curve := rfl
  key := ⟨_, _, by decide +kernel, by decide +kernel, rfl⟩

end X509Proof

/-- C68 is false: of a short certificate the library hashes the wrong bytes, so that it is never accepted as signed by its CA. -/
theorem C68_false : ¬ C68_statement := by
  intro h
  obtain ⟨c, h1, _, _, _, _, _, _, _, h2⟩ := h shortTbs 1 1 _ _ short_wellFormed (by decide +kernel) (by decide +kernel) rfl (by decide +kernel) trivial
  have hf := fromRaw_certificate shortTbs (tbsOk short_wellFormed (by decide +kernel)) 1 1 (by decide +kernel) (by decide +kernel) []
  rw [List.append_nil, h1] at hf
  rw [Res.ok.inj hf] at h2
  revert h2
  decide +kernel

/-- A certificate is accepted as signed by a CA exactly if its signature is a valid ECDSA signature (FIPS 186-4, SHA-256) of its to-be-signed part
under the CA's key. -/
theorem C68_signed (t : Spec.X509.Tbs) (r s x y : Nat) (h : t.WellFormed) (hl : (Spec.X509.certificate t r s).length < 2 ^ 16)
    (hP : 256 ≤ t.body.length) (ca : Certificate) (caX : Model.X509) (hca : ca.x509 = some caX)
    (hkey : caX.getPublicKey = .ok ⟨⟨x, y⟩, Curve.secp256r1⟩) (c : Certificate) (hc : Certificate.fromRawX509 (Spec.X509.certificate t r s) = .ok c) :
    Certificate.hasSigned ca c = .ok () ↔ Spec.Ecdsa.Accepts (x, y) r s (Spec.Ecdsa.hashInt (Sha2.sha256 t.encode)) := by
  obtain ⟨px, py, hpx, hpy, hk⟩ := h.key
  obtain ⟨x5, h1, _, _, _, _, _, h7, h8⟩ := certificate_fields t r s px py h hpx hpy hk hl hP
  unfold Certificate.fromRawX509 at hc
  rw [h1] at hc
  simp only [Res.mapErr, Res.ok_bind] at hc
  have hc := Res.ok.inj hc
  subst hc
  obtain ⟨b1, _⟩ := certificate_bounds t r s hl
  obtain ⟨hh, hlen⟩ := C06_sha256_fips t.encode (by omega)
  obtain ⟨ans, hv, hiff⟩ := C30_fips x y s r (by omega) (by omega) (Model.sha256 t.encode) (by omega)
  unfold Certificate.hasSigned
  simp only [hca, hkey, h7, h8, Res.ok_bind, hv, Certificate.verifyResult]
  rw [hh] at hiff
  rw [← hiff]
  cases ans <;> simp

/-! ### C50 -/

/-- C50: whenever a certificate is accepted as signed by a CA and the bytes under the signature are a well-formed to-be-signed part, the validity
period and the subject acted upon are those written there. -/
def C50_statement : Prop :=
  ∀ (ca c : Certificate) (x : Model.X509) (t : Spec.X509.Tbs), t.WellFormed → Certificate.fromRawX509 c.raw = .ok c → c.x509 = some x →
    Certificate.hasSigned ca c = .ok () → slice (ε := TlsError) c.raw 4 (4 + x.tbsCertificateSize) = .ok t.encode →
    x.validity.notBefore = some (utcOf t.notBefore) ∧ x.validity.notAfter = some (utcOf t.notAfter) ∧
    ∀ o nm, (o, nm) ∈ Spec.X509.attributeNames → x.subject.get nm = Res.okOr .nameGet (Spec.X509.attributeValue t.subject o)

/-- The part of C50 that holds: in any input made of a four-byte outer header, a well-formed to-be-signed part of at least 256 bytes and anything
after it, if the parser accepts it, then the bytes checked against the CA's signature are that part, and the serial number, the start of the
validity period, the issuer and the public key are those written in it, whatever follows. Missing: the end of the validity period and the subject
(`C50_forged`, `C50_false`), and other outer headers. -/
theorem C50_signed_fields_partial (t : Spec.X509.Tbs) (h : t.WellFormed) (h1 : 256 ≤ t.body.length) (h2 : t.body.length < 2 ^ 16) (px py : Nat)
    (hpx : px < 2 ^ 256) (hpy : py < 2 ^ 256) (hk : t.key = Spec.X509.point px py) (l1 l2 : Byte) (tail : Bytes) (x : Model.X509)
    (hx : Model.X509.fromRaw ([0x30#8, 0x82#8, l1, l2] ++ (t.encode ++ tail)) = .ok x) :
    slice (ε := TlsError) ([0x30#8, 0x82#8, l1, l2] ++ (t.encode ++ tail)) 4 (4 + x.tbsCertificateSize) = .ok t.encode ∧
    x.serialNumber = t.serial ∧ x.validity.notBefore = some (utcOf t.notBefore) ∧ x.getPublicKey = .ok ⟨⟨px, py⟩, Curve.secp256r1⟩ ∧
    ∀ o nm, (o, nm) ∈ Spec.X509.attributeNames → x.issuer.get nm = Res.okOr .nameGet (Spec.X509.attributeValue t.issuer o) := by
  have hl : t.encode.length < 2 ^ 31 := by
    unfold Spec.X509.Tbs.encode Der.sequence Der.tlv Der.length
    rw [if_neg (by omega), if_neg (by omega), if_pos h2]
    simp [beBytes_length]; omega
  obtain ⟨k1, k2, k3, k4, _, k6, k7⟩ := fromRaw_signed t (tbsOk h hl) l1 l2 tail x hx
  refine ⟨?_, k1, k2, getPublicKey_point _ px py hpx hpy (by rw [k4, curve_name h]) (by rw [k3, hk]), ?_⟩
  · rw [k6]
    exact signed_slice t h1 h2 [0x30#8, 0x82#8, l1, l2] tail rfl
  · intro o nm hm
    rw [k7]
    exact get_name _ o nm hm fun a ha => (h.issuer a ha).oid

/-- A certificate with a date and naming attributes appended by someone else, inside the outer SEQUENCE but outside the signed part. -/
def forged (t : Spec.X509.Tbs) (r s : Nat) (date : Spec.X509.DateTime) (attrs : List Spec.X509.Attribute) : Bytes :=
  Der.sequence (t.encode ++ (t.sigAlg.encode ++ (Spec.X509.bitString (Der.ecdsaSig r s) ++
    (Spec.X509.time date ++ (attrs.map Spec.X509.Attribute.encode).flatten))))

/-- What the holder of any accepted certificate can do with it: the changed bytes are still accepted as signed by the CA, with an end of the
validity period and subject attributes of the holder's choice. -/
theorem C50_forged (t : Spec.X509.Tbs) (r s : Nat) (h : t.WellFormed) (hl : (Spec.X509.certificate t r s).length < 2 ^ 16)
    (hP : 256 ≤ t.body.length) (ca c : Certificate) (hc : Certificate.fromRawX509 (Spec.X509.certificate t r s) = .ok c)
    (hs : Certificate.hasSigned ca c = .ok ()) (date : Spec.X509.DateTime) (hd : date.WellFormed) (attrs : List Spec.X509.Attribute)
    (ha : ∀ a ∈ attrs, a.WellFormed) (hfl : (forged t r s date attrs).length < 2 ^ 16) :
    ∃ c' x', Certificate.fromRawX509 (forged t r s date attrs) = .ok c' ∧ c'.x509 = some x' ∧ Certificate.hasSigned ca c' = .ok () ∧
      slice (ε := TlsError) c'.raw 4 (4 + x'.tbsCertificateSize) = .ok t.encode ∧
      x'.validity.notAfter = some (utcOf date) ∧
      ∀ o nm, (o, nm) ∈ Spec.X509.attributeNames →
        x'.subject.get nm = Res.okOr .nameGet (Spec.X509.attributeValue (t.subject ++ attrs) o) := by
  obtain ⟨px, py, hpx, hpy, hk⟩ := h.key
  obtain ⟨x5, h1, _, _, _, _, _, h7, h8⟩ := certificate_fields t r s px py h hpx hpy hk hl hP
  obtain ⟨b1, b2, b3, b4, b5⟩ := certificate_bounds t r s hl
  obtain ⟨inner, hin⟩ : ∃ inner, inner = t.encode ++ (t.sigAlg.encode ++ (Spec.X509.bitString (Der.ecdsaSig r s) ++
    (Spec.X509.time date ++ (attrs.map Spec.X509.Attribute.encode).flatten))) := ⟨_, rfl⟩
  have hfd : forged t r s date attrs = Der.sequence inner := by rw [hin]; rfl
  have lf := tlv_length_gt 0x30#8 inner
  rw [hfd] at hfl
  unfold Der.sequence at hfl
  have hinl : inner.length = t.encode.length + (t.sigAlg.encode.length + ((Spec.X509.bitString (Der.ecdsaSig r s)).length +
    (Spec.X509.time date ++ (attrs.map Spec.X509.Attribute.encode).flatten).length)) := by rw [hin]; simp only [List.length_append]
  have hf := fromRaw_forged t (tbsOk h (by omega)) r s b3 b4 date hd attrs
    (fun a hm => ⟨(ha a hm).kind, (Utf8Proof.utf8Valid_iff _).2 (ha a hm).text⟩) (by omega)
  rw [← hin, ← hfd] at hf
  have hsl : slice (ε := TlsError) (forged t r s date attrs) 4 (4 + (t.body.length + 4)) = .ok t.encode := by
    obtain ⟨hdr, h4, he⟩ := header4 inner (by omega) (by omega)
    rw [hfd, he, hin]
    exact signed_slice t hP (by omega) hdr _ h4
  refine ⟨_, _, by unfold Certificate.fromRawX509; rw [hf]; rfl, rfl, ?_, hsl, rfl, ?_⟩
  · have hraw : c.raw = Spec.X509.certificate t r s ∧ c.x509 = some x5 := by
      unfold Certificate.fromRawX509 at hc
      rw [h1] at hc
      simp only [Res.mapErr, Res.ok_bind] at hc
      rw [← Res.ok.inj hc]
      exact ⟨rfl, rfl⟩
    unfold Certificate.hasSigned at hs ⊢
    rw [hraw.2, hraw.1] at hs
    simp only [] at hs ⊢
    cases hcx : ca.x509 with
    | none => rw [hcx] at hs; cases hs
    | some caX =>
      rw [hcx] at hs
      simp only [h7, h8, Res.ok_bind, hsl] at hs ⊢
      exact hs
  · intro o nm hm
    refine get_name _ o nm hm ?_
    intro a hm2
    rcases List.mem_append.1 hm2 with h' | h'
    · exact (h.subject a h').oid
    · exact (ha a h').oid

namespace X509Proof

/-- The certificate of the unit test as its own CA (it is self-signed). -/
theorem own_signed : ∃ c, Certificate.fromRawX509 (Spec.X509.certificate ownTbs ownR ownS) = .ok c ∧ Certificate.hasSigned c c = .ok () := by
  obtain ⟨px, py, hpx, hpy, hk⟩ := own_wellFormed.key
  have hf := fromRaw_certificate ownTbs (tbsOk own_wellFormed (by decide +kernel)) ownR ownS (by decide +kernel) (by decide +kernel) []
  rw [List.append_nil] at hf
  refine ⟨_, by unfold Certificate.fromRawX509; rw [hf]; rfl, ?_⟩
  decide +kernel

end X509Proof

/-- C50 is false: the certificate of the unit test, expired in 2024, can be made valid until 2049, for another subject. -/
theorem C50_false : ¬ C50_statement := by
  intro h
  obtain ⟨c, hc, hs⟩ := own_signed
  obtain ⟨c', x', h1, h2, h3, h4, h5, _⟩ := C50_forged ownTbs ownR ownS own_wellFormed (by decide +kernel) (by decide +kernel) c c hc hs
    ⟨2049, 12, 31, 0, 0, 0⟩ (by unfold Spec.X509.DateTime.WellFormed Time.InCalendar; decide)
    [⟨[0x55, 0x04, 0x03], 0x0c, ascii "root"⟩] (by
      intro a ha
      simp only [List.mem_cons, List.not_mem_nil, or_false] at ha
      subst ha
      exact ⟨by decide, isText_ascii _ (by decide), by decide⟩) (by decide +kernel)
  have hraw : c'.raw = forged ownTbs ownR ownS ⟨2049, 12, 31, 0, 0, 0⟩ [⟨[0x55, 0x04, 0x03], 0x0c, ascii "root"⟩] := by
    unfold Certificate.fromRawX509 at h1
    obtain ⟨x, _, h1⟩ := Res.bind_eq_ok.1 h1
    rw [← Res.ok.inj h1]
  have := (h c c' x' ownTbs own_wellFormed (by rw [hraw]; exact h1) h2 h3 h4).2.1
  rw [h5] at this
  revert this
  decide

/-! ### C53 -/

/-- C53 in full: no panic. -/
def C53_statement : Prop := ∀ data : Bytes, (Model.X509.fromRaw data).returns

/-- The recursion of the parser is bounded by the input: any amount of fuel from the input length on gives the same result, so the model's result
is that of the unbounded recursion of the code. -/
theorem C53_terminates (data : Bytes) (fuel : Nat) (h : data.length + 1 ≤ fuel) (b : X509Builder) (st : ParsingState) :
    parse fuel b st data 0 = parse (data.length + 1) b st data 0 :=
  (fuel_enough data (data.length + 1)).1 b st 0 _ _ (by omega) (by omega) (by omega)

/-- C53 for well-formed certificates followed by anything. Missing: other inputs, on which the parser may panic (`C53_false`). -/
theorem C53_returns_partial (t : Spec.X509.Tbs) (r s : Nat) (h : t.WellFormed) (hl : (Spec.X509.certificate t r s).length < 2 ^ 16) (rest : Bytes) :
    ∃ x, Model.X509.fromRaw (Spec.X509.certificate t r s ++ rest) = .ok x := by
  obtain ⟨b1, b2, b3, b4, b5⟩ := certificate_bounds t r s hl
  exact ⟨_, fromRaw_certificate t (tbsOk h (by omega)) r s b3 b4 rest⟩

example : shortTbs.WellFormed ∧ (Spec.X509.certificate shortTbs 1 1).length < 2 ^ 16 := ⟨short_wellFormed, by decide +kernel⟩

/-- C53 is false: the empty input, a truncated element, and the NULL parameters of every RSA certificate's algorithm identifier make the parser
panic. -/
theorem C53_false : ¬ C53_statement ∧ Model.X509.fromRaw [] = .panic ∧ Model.X509.fromRaw [0x30, 0x05, 0x02, 0x01, 0x07] = .panic ∧
    Model.X509.fromRaw (Der.sequence (Der.sequence (Der.integer 1 ++ Der.sequence
      (Spec.X509.objectIdentifier [0x2a, 0x86, 0x48, 0x86, 0xf7, 0x0d, 0x01, 0x01, 0x0b] ++ [0x05, 0x00])))) = .panic := by
  refine ⟨?_, by decide +kernel, by decide +kernel, by decide +kernel⟩
  intro h
  have := h []
  revert this
  decide +kernel

end ATLS
