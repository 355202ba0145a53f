import Verif.Props.PairExample
/-
The certificates of /repo/examples/src/bin/config/client_cert: the client CA and the certificate of the client "otsmr".
-/
namespace ATLS
open ATLS.Model ATLS.Spec FlowProof X509Proof

/-- The to-be-signed part of /repo/examples/src/bin/config/client_cert/ca.cert. -/
def caTbs : Spec.X509.Tbs where
  version := some 2
  serial := 0x789c78816ef353ad9dcc3b4849118bfd57383f3a
  sigAlg := .ecdsaWithSha256
  issuer := [⟨[0x55, 0x04, 0x06], 0x13, ascii "DE"⟩, ⟨[0x55, 0x04, 0x08], 0x0c, ascii "Moon"⟩, ⟨[0x55, 0x04, 0x0a], 0x0c, ascii "AnotherCA secure"⟩,
    ⟨[0x55, 0x04, 0x03], 0x0c, ascii "AnotherCA"⟩, ⟨[0x2a, 0x86, 0x48, 0x86, 0xf7, 0x0d, 0x01, 0x09, 0x01], 0x16, ascii "security@tsmr.eu"⟩]
  notBefore := ⟨2023, 3, 16, 17, 50, 49⟩
  notAfter := ⟨2024, 3, 15, 17, 50, 49⟩
  subject := [⟨[0x55, 0x04, 0x06], 0x13, ascii "DE"⟩, ⟨[0x55, 0x04, 0x08], 0x0c, ascii "Moon"⟩, ⟨[0x55, 0x04, 0x0a], 0x0c, ascii "AnotherCA secure"⟩,
    ⟨[0x55, 0x04, 0x03], 0x0c, ascii "AnotherCA"⟩, ⟨[0x2a, 0x86, 0x48, 0x86, 0xf7, 0x0d, 0x01, 0x09, 0x01], 0x16, ascii "security@tsmr.eu"⟩]
  key := Spec.X509.point 0x3307982182af80043e8a149a542c576d1364a92eb323099193d04afe2d76437b
    0xef73a21255f507d10d0edf50225e0abfb151127d7b77205031b2e32feeee9ae7
  extensions := some [
    0x30, 0x51, 0x30, 0x1d, 0x06, 0x03, 0x55, 0x1d, 0x0e, 0x04, 0x16, 0x04, 0x14, 0x0b, 0x8e, 0xdf, 0xbc, 0xf4, 0x91, 0x7a,
    0x36, 0x81, 0xed, 0x1a, 0x85, 0x79, 0xdd, 0x6d, 0xc3, 0x0d, 0x39, 0x47, 0x94, 0x30, 0x1f, 0x06, 0x03, 0x55, 0x1d, 0x23,
    0x04, 0x18, 0x30, 0x16, 0x80, 0x14, 0x0b, 0x8e, 0xdf, 0xbc, 0xf4, 0x91, 0x7a, 0x36, 0x81, 0xed, 0x1a, 0x85, 0x79, 0xdd,
    0x6d, 0xc3, 0x0d, 0x39, 0x47, 0x94, 0x30, 0x0f, 0x06, 0x03, 0x55, 0x1d, 0x13, 0x01, 0x01, 0xff, 0x04, 0x05, 0x30, 0x03,
    0x01, 0x01, 0xff]

@[inherit_doc caTbs] def caR : Nat := 0x77c57945d65dce1264b7fe0f7b046a8b9803e75f343bdb4ef43853470e10ac94
@[inherit_doc caTbs] def caS : Nat := 0x5cc5db8cee71e617da7f0db1984951cd782695243997e489b5067123917dcae5

/-- The to-be-signed part of /repo/examples/src/bin/config/client_cert/client.signed.cert. -/
def otsmrTbs : Spec.X509.Tbs where
  version := none
  serial := 0x5608da598885be938e65547ce4999f58fee38580
  sigAlg := .ecdsaWithSha256
  issuer := [⟨[0x55, 0x04, 0x06], 0x13, ascii "DE"⟩, ⟨[0x55, 0x04, 0x08], 0x0c, ascii "Moon"⟩, ⟨[0x55, 0x04, 0x0a], 0x0c, ascii "AnotherCA secure"⟩,
    ⟨[0x55, 0x04, 0x03], 0x0c, ascii "AnotherCA"⟩, ⟨[0x2a, 0x86, 0x48, 0x86, 0xf7, 0x0d, 0x01, 0x09, 0x01], 0x16, ascii "security@tsmr.eu"⟩]
  notBefore := ⟨2023, 3, 16, 18, 3, 52⟩
  notAfter := ⟨2024, 3, 15, 18, 3, 52⟩
  subject := [⟨[0x55, 0x04, 0x06], 0x13, ascii "DE"⟩, ⟨[0x55, 0x04, 0x08], 0x0c, ascii "Moon"⟩, ⟨[0x55, 0x04, 0x07], 0x0c, ascii "Space"⟩,
    ⟨[0x55, 0x04, 0x0a], 0x0c, ascii "AnotherCompany"⟩, ⟨[0x55, 0x04, 0x0b], 0x0c, ascii "zecurity"⟩, ⟨[0x55, 0x04, 0x03], 0x0c, ascii "otsmr"⟩,
    ⟨[0x2a, 0x86, 0x48, 0x86, 0xf7, 0x0d, 0x01, 0x09, 0x01], 0x16, ascii "tsmr@another.company"⟩]
  key := Spec.X509.point 0xe206723a9057980587346a8dc604d729cb78eb2a26569bc6ef63d39bb004c4db
    0xb8f3eb5ad2bcd70adfb182248bc32052dd9a58a0ba4578bb3e7aab71b6e4cbe3
  extensions := none

@[inherit_doc otsmrTbs] def otsmrR : Nat := 0x1136f044a0c91932cc7c5f5ae3e6c13fafef1332f0fa2ebc413ec361c19a9ef1
@[inherit_doc otsmrTbs] def otsmrS : Nat := 0x9acdbf76f32fe17fc0b2d6acaf6c61d2f632cbfdb26a4cbeb53d5e30ca4aefea

/-- The bytes in these two files. -/
example : Spec.X509.certificate caTbs caR caS =
  beBytes 64 0x3082022c308201d3a0030201020214789c78816ef353ad9dcc3b4849118bfd57383f3a300a06082a8648ce3d040302306c310b3009060355040613024445310d ++
  beBytes 64 0x300b06035504080c044d6f6f6e31193017060355040a0c10416e6f746865724341207365637572653112301006035504030c09416e6f746865724341311f301d ++
  beBytes 64 0x06092a864886f70d010901161073656375726974794074736d722e6575301e170d3233303331363137353034395a170d3234303331353137353034395a306c31 ++
  beBytes 64 0x0b3009060355040613024445310d300b06035504080c044d6f6f6e31193017060355040a0c10416e6f746865724341207365637572653112301006035504030c ++
  beBytes 64 0x09416e6f746865724341311f301d06092a864886f70d010901161073656375726974794074736d722e65753059301306072a8648ce3d020106082a8648ce3d03 ++
  beBytes 64 0x0107034200043307982182af80043e8a149a542c576d1364a92eb323099193d04afe2d76437bef73a21255f507d10d0edf50225e0abfb151127d7b77205031b2 ++
  beBytes 64 0xe32feeee9ae7a3533051301d0603551d0e041604140b8edfbcf4917a3681ed1a8579dd6dc30d394794301f0603551d230418301680140b8edfbcf4917a3681ed ++
  beBytes 64 0x1a8579dd6dc30d394794300f0603551d130101ff040530030101ff300a06082a8648ce3d0403020347003044022077c57945d65dce1264b7fe0f7b046a8b9803 ++
  beBytes 48 0xe75f343bdb4ef43853470e10ac9402205cc5db8cee71e617da7f0db1984951cd782695243997e489b5067123917dcae5 := by decide +kernel
example : Spec.X509.certificate otsmrTbs otsmrR otsmrS =
  beBytes 64 0x308201f53082019b02145608da598885be938e65547ce4999f58fee38580300a06082a8648ce3d040302306c310b3009060355040613024445310d300b060355 ++
  beBytes 64 0x04080c044d6f6f6e31193017060355040a0c10416e6f746865724341207365637572653112301006035504030c09416e6f746865724341311f301d06092a8648 ++
  beBytes 64 0x86f70d010901161073656375726974794074736d722e6575301e170d3233303331363138303335325a170d3234303331353138303335325a30818d310b300906 ++
  beBytes 64 0x0355040613024445310d300b06035504080c044d6f6f6e310e300c06035504070c05537061636531173015060355040a0c0e416e6f74686572436f6d70616e79 ++
  beBytes 64 0x3111300f060355040b0c087a65637572697479310e300c06035504030c056f74736d723123302106092a864886f70d010901161474736d7240616e6f74686572 ++
  beBytes 64 0x2e636f6d70616e793059301306072a8648ce3d020106082a8648ce3d03010703420004e206723a9057980587346a8dc604d729cb78eb2a26569bc6ef63d39bb0 ++
  beBytes 64 0x04c4dbb8f3eb5ad2bcd70adfb182248bc32052dd9a58a0ba4578bb3e7aab71b6e4cbe3300a06082a8648ce3d040302034800304502201136f044a0c91932cc7c ++
  beBytes 57 0x5f5ae3e6c13fafef1332f0fa2ebc413ec361c19a9ef10221009acdbf76f32fe17fc0b2d6acaf6c61d2f632cbfdb26a4cbeb53d5e30ca4aefea := by decide +kernel

/-- /repo/examples/src/bin/config/client_cert/client.key -/
def otsmrKey : PrivateKey := ⟨.secp256r1, 0xc5d8b7cd21c190491a936aaa1a4d6fb96cecd91da3fd63b69a2ba44c8de87cfe⟩

theorem otsmrKey_public : otsmrKey.getPublicKey = .ok ⟨⟨0xe206723a9057980587346a8dc604d729cb78eb2a26569bc6ef63d39bb004c4db,
    0xb8f3eb5ad2bcd70adfb182248bc32052dd9a58a0ba4578bb3e7aab71b6e4cbe3⟩, .secp256r1⟩ := by decide +kernel

namespace X509Proof

theorem ca_wellFormed : caTbs.WellFormed where
  version := fun v h => by cases h; decide
  issuer := by
    intro a ha
    simp only [caTbs, List.mem_cons, List.not_mem_nil, or_false] at ha
    rcases ha with rfl | rfl | rfl | rfl | rfl <;> exact ⟨by decide, isText_ascii _ (by decide), by decide⟩
  subject := by
    intro a ha
    simp only [caTbs, List.mem_cons, List.not_mem_nil, or_false] at ha
    rcases ha with rfl | rfl | rfl | rfl | rfl <;> exact ⟨by decide, isText_ascii _ (by decide), by decide⟩
  notBefore := by unfold Spec.X509.DateTime.WellFormed Time.InCalendar; decide
  notAfter := by unfold Spec.X509.DateTime.WellFormed Time.InCalendar; decide
  curve := rfl
  key := ⟨_, _, by decide +kernel, by decide +kernel, rfl⟩

theorem otsmr_wellFormed : otsmrTbs.WellFormed where
  version := fun v h => by cases h
  issuer := by
    intro a ha
    simp only [otsmrTbs, List.mem_cons, List.not_mem_nil, or_false] at ha
    rcases ha with rfl | rfl | rfl | rfl | rfl <;> exact ⟨by decide, isText_ascii _ (by decide), by decide⟩
  subject := by
    intro a ha
    simp only [otsmrTbs, List.mem_cons, List.not_mem_nil, or_false] at ha
    rcases ha with rfl | rfl | rfl | rfl | rfl | rfl | rfl <;> exact ⟨by decide, isText_ascii _ (by decide), by decide⟩
  notBefore := by unfold Spec.X509.DateTime.WellFormed Time.InCalendar; decide
  notAfter := by unfold Spec.X509.DateTime.WellFormed Time.InCalendar; decide
  curve := rfl
  key := ⟨_, _, by decide +kernel, by decide +kernel, rfl⟩

theorem otsmr_signed : ∃ ca c, Certificate.fromRawX509 (Spec.X509.certificate caTbs caR caS) = .ok ca ∧
    Certificate.fromRawX509 (Spec.X509.certificate otsmrTbs otsmrR otsmrS) = .ok c ∧ Certificate.hasSigned ca c = .ok () := by
  have hf := fromRaw_certificate otsmrTbs (tbsOk otsmr_wellFormed (by decide +kernel)) otsmrR otsmrS (by decide +kernel) (by decide +kernel) []
  have hg := fromRaw_certificate caTbs (tbsOk ca_wellFormed (by decide +kernel)) caR caS (by decide +kernel) (by decide +kernel) []
  rw [List.append_nil] at hf hg
  refine ⟨_, _, by unfold Certificate.fromRawX509; rw [hg]; rfl, by unfold Certificate.fromRawX509; rw [hf]; rfl, ?_⟩
  decide +kernel

/-- The client's certificate, with its key and its CA. -/
theorem otsmr_identity : ∃ ca x, Certificate.fromRawX509 (Spec.X509.certificate caTbs caR caS) = .ok ca ∧
    Identity (Spec.X509.certificate otsmrTbs otsmrR otsmrS) otsmrKey june2023 x ∧
    Certificate.hasSigned ca ⟨Spec.X509.certificate otsmrTbs otsmrR otsmrS, some x⟩ = .ok () ∧
    ∀ o nm, (o, nm) ∈ Spec.X509.attributeNames → x.subject.get nm = Res.okOr .nameGet (Spec.X509.attributeValue otsmrTbs.subject o) := by
  obtain ⟨x, h1, _, h2, _, h4, h3, _, _⟩ := certificate_fields otsmrTbs otsmrR otsmrS _ _ otsmr_wellFormed (by decide +kernel) (by decide +kernel) rfl (by decide +kernel) (by decide +kernel)
  obtain ⟨ca, c, k1, hc, hs⟩ := otsmr_signed
  refine ⟨ca, x, k1, ⟨rfl, by decide +kernel, h1, ⟨_, otsmrKey_public, h3⟩, ?_⟩, ?_, h4⟩
  · rw [h2]
    decide +kernel
  · unfold Certificate.fromRawX509 at hc
    rw [h1] at hc
    rw [← Res.ok.inj hc] at hs
    exact hs

end X509Proof
end ATLS
