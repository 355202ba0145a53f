import Verif.Spec.Peer
/-
RFC 5280 4.1.1.2 and RFC 5758 3.2: the algorithm a certificate names is the one its signature is made with.
-/
namespace ATLS.Spec
open ATLS ATLS.Spec

/-- The hash function of a signature algorithm. -/
def X509.SigAlg.hash : X509.SigAlg → Bytes → Bytes
  | .ecdsaWithSha256 => Sha2.sha256
  | .ecdsaWithSha384 => Sha2.sha384

/-- The signature is valid for the P-256 key with these coordinates, with the hash function the certificate names. -/
def Tls13.Cert.SignedAsNamed (c : Tls13.Cert) (Q : Nat × Nat) : Prop :=
  Ecdsa.Accepts ((Q.1 : Int), (Q.2 : Int)) c.r c.s (Ecdsa.hashInt (c.tbs.sigAlg.hash c.tbs.encode))

end ATLS.Spec
