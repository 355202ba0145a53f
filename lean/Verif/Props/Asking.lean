import Verif.Props.Instances
import Verif.Spec.Asking
/-
C126: the server takes a client's certificate only as an answer to its own request.
-/
namespace ATLS
open ATLS.Model ATLS.Spec FlowProof

/-- C126: when a server with a client CA hands out a stream, it sent exactly one certificate request, with a context of 32 bytes and
ecdsa_secp256r1_sha256 as the only algorithm; and the client's first two protected records start with a Certificate message with this context and a
CertificateVerify message with this algorithm. `Accepted` relates `r.flight`, `m1` and `m2` to what was sent and received. -/
theorem C126_answered (env : ServerEnv) (reads : List Bytes) (sock : Socket) (s : TlsStream) (h : ServerHandshake) (ca : Certificate)
    (hc : env.config.cert.raw.length < 2 ^ 24) (hca : env.config.clientCertCa = some ca) (ha : ServerConnection.accept env reads sock = (.ok s, h)) :
    ∃ (r : Exchange) (context m1 m2 fin tail : Bytes), Accepted env reads sock s r (some context) [m1, m2] fin tail ∧ context.length = 32 ∧
      Tls13.AsksOnce r.flight context [0x0403] ∧ Tls13.CertificateFor context m1 ∧ Tls13.VerifyWith 0x0403 m2 := by
  obtain ⟨r, context, m1, m2, fin, tail, raw, x, hA, ⟨c, n, post, more, rfl, _, h2, _⟩, ⟨der, more2, more3, px, py, sig, size, h3, _⟩⟩ :=
    C43_client_auth_partial env reads sock s h ca hc hca ha
  obtain ⟨req, cv, hr, hs, hf⟩ := hA.flight
  obtain ⟨sg, dr, _, _, hcv⟩ := hs
  unfold Requested at hr
  rw [hca] at hr
  obtain ⟨c', hl, hcc, hreq⟩ := hr
  obtain rfl := Option.some.inj hcc
  refine ⟨r, c, m1, m2, fin, tail, hA, hl, ?_, ⟨n ++ beBytes 3 raw.length ++ raw ++ post, more, h2⟩, ⟨beBytes 2 size ++ der ++ more2, more3, ?_⟩⟩
  · unfold Tls13.AsksOnce
    rw [hf, hreq, hcv]
    simp [encryptedExtensions, certificateMsg, Tls13.handshakeMessage, Tls13.Session.finished]
  · rw [h3]
    have : beBytes 2 0x0403 = [4#8, 3#8] := by decide
    rw [this]
    simp [List.append_assoc]

/-- C126: a server without a client CA does not ask, and takes no message from the client between its ClientHello and its Finished. -/
theorem C126_not_asked (env : ServerEnv) (reads : List Bytes) (sock : Socket) (s : TlsStream) (h : ServerHandshake)
    (hc : env.config.cert.raw.length < 2 ^ 24) (hca : env.config.clientCertCa = none) (ha : ServerConnection.accept env reads sock = (.ok s, h)) :
    ∃ (r : Exchange) (fin tail : Bytes), Accepted env reads sock s r none [] fin tail ∧ Tls13.AsksNot r.flight := by
  obtain ⟨r, context, auth, fin, tail, hA⟩ := C42_server_accepts env reads sock s h hc ha
  have h1 := hA.authenticated
  unfold ClientAuth at h1
  rw [hca] at h1
  obtain ⟨req, cv, hr, hs, hf⟩ := hA.flight
  obtain ⟨sg, dr, _, _, hcv⟩ := hs
  unfold Requested at hr
  rw [hca] at hr
  obtain ⟨rfl, rfl⟩ := hr
  rw [show auth = [] from h1] at hA
  refine ⟨r, fin, tail, hA, ?_⟩
  intro m hm
  rw [hf, hcv] at hm
  simp only [List.append_nil, List.mem_append, List.mem_cons, List.not_mem_nil, or_false] at hm
  rcases hm with rfl | rfl | rfl | rfl <;> simp [encryptedExtensions, certificateMsg, Tls13.handshakeMessage, Tls13.Session.finished]

/-- The hypotheses of both are met. -/
example : ∃ (r : Exchange) (context m1 m2 : Bytes), Tls13.AsksOnce r.flight context [0x0403] ∧ Tls13.CertificateFor context m1 ∧ Tls13.VerifyWith 0x0403 m2 := by
  obtain ⟨env, reads, sock, s, h, g, hc, ha, _⟩ := server_example true
  obtain ⟨ca, hca⟩ := Option.isSome_iff_exists.1 ha
  obtain ⟨r, context, m1, m2, _, _, _, _, h1, h2, h3⟩ := C126_answered env reads sock s h ca hc hca g
  exact ⟨r, context, m1, m2, h1, h2, h3⟩
example : ∃ (env : ServerEnv) (reads : List Bytes) (sock : Socket) (s : TlsStream) (r : Exchange) (fin tail : Bytes),
    Accepted env reads sock s r none [] fin tail ∧ Tls13.AsksNot r.flight := by
  obtain ⟨env, reads, sock, s, h, g, hc, ha, _⟩ := server_example false
  have hca : env.config.clientCertCa = none := by
    rcases h0 : env.config.clientCertCa with _ | ca
    · rfl
    · rw [h0] at ha; cases ha
  obtain ⟨r, fin, tail, h1, h2⟩ := C126_not_asked env reads sock s h hc hca g
  exact ⟨env, reads, sock, s, r, fin, tail, h1, h2⟩

end ATLS
