import Verif.Spec.Certificate
import Verif.Spec.Peer
/-
RFC 8446 section 4.4.3: "If the CertificateVerify message is sent by a client, the signature algorithm used in the signature MUST be one of those present
in the supported_signature_algorithms field of the "signature_algorithms" extension in the CertificateRequest message."
-/
namespace ATLS.Spec.Tls13
open ATLS

/-- Every CertificateVerify message among `messages` names one of `schemes`. -/
def SignsAsAsked (schemes : List Nat) (messages : List Bytes) : Prop :=
  ∀ scheme signature, scheme < 2 ^ 16 → handshakeMessage 15#8 (certificateVerifyMessage scheme signature) ∈ messages → scheme ∈ schemes

/-- A message that names one of them is as asked, and one that does not is not. -/
example : SignsAsAsked [0x0804, 0x0403] [handshakeMessage 15#8 (certificateVerifyMessage 0x0403 [])] := by
  intro scheme signature h hm
  simp only [List.mem_singleton, handshakeMessage, certificateVerifyMessage, List.append_assoc] at hm
  have h2 := congrArg (fun l => l.drop 4 |>.take 2) hm
  simp [beBytes] at h2
  have h3 := congrArg BitVec.toNat h2.1
  have h4 := congrArg BitVec.toNat h2.2
  simp only [BitVec.toNat_ofNat] at h3 h4
  have : scheme = 0x0403 := by
    simp [Nat.shiftRight_eq_div_pow] at h3 h4
    omega
  simp [this]
example : ¬ SignsAsAsked [0x0804] [handshakeMessage 15#8 (certificateVerifyMessage 0x0403 [])] := fun h => by
  simpa using h 0x0403 [] (by norm_num) (by simp)

end ATLS.Spec.Tls13
