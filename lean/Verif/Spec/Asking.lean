import Verif.Spec.Handshake
import Verif.Spec.Certificate
/-
RFC 8446 sections 4.3.2, 4.4.2 and 4.4.3: a server that asks for a certificate, and what answers it. The certificate_request_context of the client's
Certificate message is that of the request; the algorithm of its CertificateVerify message is one the request names.
-/
namespace ATLS.Spec.Tls13
open ATLS

/-- Among the handshake messages `flight` there is exactly one CertificateRequest (type 13): with this context and these algorithms. -/
def AsksOnce (flight : List Bytes) (context : Bytes) (schemes : List Nat) : Prop :=
  flight.filter (fun m => m.head? == some 13#8) = [handshakeMessage 13#8 (certificateRequest context schemes)]

/-- There is none. -/
def AsksNot (flight : List Bytes) : Prop := ∀ m ∈ flight, m.head? ≠ some 13#8

/-- `content` starts with a Certificate message with this context. -/
def CertificateFor (context content : Bytes) : Prop :=
  ∃ list more, content = handshakeMessage 11#8 (beBytes 1 context.length ++ context ++ list) ++ more

/-- `content` starts with a CertificateVerify message that names this algorithm. -/
def VerifyWith (scheme : Nat) (content : Bytes) : Prop :=
  ∃ signature more, content = handshakeMessage 15#8 (beBytes 2 scheme ++ signature) ++ more

/-- A flight with one request asks once, and with two it does not. -/
example : AsksOnce [handshakeMessage 8#8 [], handshakeMessage 13#8 (certificateRequest [1#8] [0x0403])] [1#8] [0x0403] := by
  simp [AsksOnce, handshakeMessage]
example : ¬ AsksOnce [handshakeMessage 13#8 (certificateRequest [1#8] [0x0403]), handshakeMessage 13#8 (certificateRequest [1#8] [0x0403])] [1#8] [0x0403] := by
  simp [AsksOnce, handshakeMessage]

/-- The context matters. -/
example : ¬ CertificateFor [1#8] (handshakeMessage 11#8 [1#8, 2#8]) := by
  rintro ⟨list, more, h⟩
  have := congrArg (fun l => (l.drop 4).take 2) h
  simp [handshakeMessage, beBytes] at this

end ATLS.Spec.Tls13
