import Verif.Spec.Certificate
import Verif.Spec.Handshake
import Verif.Spec.Ecdsa
import Verif.Spec.Sha2
/-
What would have to happen for the signature of one handshake to be good in another.
-/
namespace ATLS.Spec.Tls13
open ATLS ATLS.Spec

/-- What an ecdsa_secp256r1_sha256 signature over the transcript `m` signs: the SHA-256 digest of RFC 8446's content for the role. -/
def signedDigest (role : Role) (h : Hash) (m : Bytes) : Bytes := Sha2.sha256 (verifyContent role (h.H m))

/-- An accident between the signatures of two handshakes with the transcripts `m` and `m'`: the hash of the transcripts collides, or SHA-256 does for
the contents that are signed, or the key accepts one signature for two different digests. -/
inductive Reused (key : Nat × Nat) (role : Role) (h h' : Hash) (m m' : Bytes) : Prop
  | transcript : m ≠ m' → h.H m = h'.H m' → Reused key role h h' m m'
  | content : verifyContent role (h.H m) ≠ verifyContent role (h'.H m') → signedDigest role h m = signedDigest role h' m' → Reused key role h h' m m'
  | signature (r s : Int) : signedDigest role h m ≠ signedDigest role h' m' →
      Ecdsa.Accepts ((key.1 : Int), (key.2 : Int)) r s (Ecdsa.hashInt (signedDigest role h m)) →
      Ecdsa.Accepts ((key.1 : Int), (key.2 : Int)) r s (Ecdsa.hashInt (signedDigest role h' m')) → Reused key role h h' m m'

end ATLS.Spec.Tls13
