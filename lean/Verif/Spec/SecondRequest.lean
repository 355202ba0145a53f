import Verif.Spec.Peer
/-
RFC 8446 section 4.3.2: CertificateRequest. "If the server sends it, this message MUST follow EncryptedExtensions", and section 4 (with the message flow
of section 2) has it at most once before the server's Certificate; "A peer which receives a handshake message in an unexpected order MUST abort the
handshake with an "unexpected_message" alert."
-/
namespace ATLS.Spec.Tls13
open ATLS

/-- The server follows RFC 8446 as in `Server.Follows`, except that it may send any number of certificate requests. -/
structure Server.FollowsRepeating (v : Server) (ch sid share : Bytes) (now : Nat) : Prop where
  key : v.key.length = 32
  hello : (v.helloMsg sid).Valid
  suite : (v.code, v.suite) ∈ suites
  keyShare : v.helloExtensions.filter (fun e => e.typ == 51) = [.keyShare (29, x25519Public v.key)]
  versions : v.helloExtensions.filter (fun e => e.typ == 43) = [.supportedVersions 0x0304]
  requests : ∀ b ∈ v.requests, IsCertificateRequest b
  proof : v.proof.Valid .server v.suite.hash ((v.session ch sid share).hellos ++ v.opening.flatten) now

/-- It is the same with at most one certificate request. -/
theorem Server.follows_iff (v : Server) (ch sid share : Bytes) (now : Nat) :
    v.Follows ch sid share now ↔ v.FollowsRepeating ch sid share now ∧ v.requests.length ≤ 1 :=
  ⟨fun h => ⟨⟨h.key, h.hello, h.suite, h.keyShare, h.versions, h.requests.2, h.proof⟩, h.requests.1⟩,
   fun ⟨h, hr⟩ => ⟨h.key, h.hello, h.suite, h.keyShare, h.versions, ⟨hr, h.requests⟩, h.proof⟩⟩

end ATLS.Spec.Tls13
