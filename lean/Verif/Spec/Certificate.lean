import Verif.Basic
import Verif.Spec.Common
/-
RFC 8446 4.4.2 and 4.4.3: the Certificate and CertificateVerify messages.
-/
namespace ATLS.Spec.Tls13

/-- The two ends of a connection. -/
inductive Role where
  | client
  | server
  deriving DecidableEq

/-- RFC 8446 4.4.3: "TLS 1.3, server CertificateVerify" and "TLS 1.3, client CertificateVerify". -/
def contextString : Role → Bytes
  | .server => ascii "TLS 1.3, server CertificateVerify"
  | .client => ascii "TLS 1.3, client CertificateVerify"

/-- RFC 8446 4.4.3: the content that is signed: octet 32 repeated 64 times, the context string, a single 0 byte, the transcript hash. -/
def verifyContent (role : Role) (transcriptHash : Bytes) : Bytes :=
  List.replicate 64 (BitVec.ofNat 8 32) ++ contextString role ++ [BitVec.ofNat 8 0] ++ transcriptHash

/-- RFC 8446 4.4.2: a CertificateEntry for X.509, cert_data<1..2^24-1> and extensions<0..2^16-1>. -/
def certificateEntry (e : Bytes × Bytes) : Bytes := beBytes 3 e.1.length ++ e.1 ++ beBytes 2 e.2.length ++ e.2

/-- RFC 8446 4.4.2: certificate_request_context<0..2^8-1>, certificate_list<0..2^24-1>. -/
def certificateMessage (context : Bytes) (chain : List (Bytes × Bytes)) : Bytes :=
  beBytes 1 context.length ++ context ++ beBytes 3 (chain.map certificateEntry).flatten.length ++ (chain.map certificateEntry).flatten

/-- RFC 8446 4.4.3: algorithm and signature<0..2^16-1>. -/
def certificateVerifyMessage (scheme : Nat) (signature : Bytes) : Bytes := beBytes 2 scheme ++ beBytes 2 signature.length ++ signature

end ATLS.Spec.Tls13
