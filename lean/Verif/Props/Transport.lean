import Verif.Props.TransportDefs
import Verif.Props.AgreementExample
/-
C86 and C89 for the streams `accept` and `connect` give: the secrets are the application traffic secrets of RFC 8446, from sequence number 0.
-/
namespace ATLS
open ATLS.Spec ATLS.Model ATLS.KsProof ATLS.RecProof FlowProof RfcProof

/-- C86 and C89 after `accept`: the suite is the one selected, the stream writes with the application traffic secret of the server and reads with that of the
client, of RFC 8446's key schedule for the shared secret and the transcript through the server's Finished. -/
theorem C89_after_accept (env : ServerEnv) (reads : List Bytes) (sock : Socket) (s : TlsStream) (h : ServerHandshake) (hc : env.config.cert.raw.length < 2 ^ 24)
    (ha : ServerConnection.accept env reads sock = (.ok s, h)) :
    ∃ r context auth fin tail u, Accepted env reads sock s r context auth fin tail ∧ (r.x.cs.asU16, u) ∈ Tls13.suites ∧ u.hash = r.x.sess.hash ∧
      u.keyLength = r.x.sess.keyLength ∧ Carries r.x.cs.asU16 u s (r.x.sess.appSecret r.transcript .server) (r.x.sess.appSecret r.transcript .client) := by
  obtain ⟨r, context, auth, fin, tail, hacc, _⟩ := ServerProof.accepts_logged env reads sock s h hc ha
  obtain ⟨rng, hs, hello, answer, pk, share, body, e1, e2, e3, e4, e5, e6, e7, e8, e9, e10, e11, e12, e13, e14⟩ := hacc.answered
  obtain ⟨p, hp, hpc, hw, hr⟩ := hacc.keys
  obtain ⟨u, h1, h2, h3, h4⟩ := ChannelProof.transport e12 e13 hp hpc hw hr
  exact ⟨r, context, auth, fin, tail, u, hacc, h1, h2, h3, h4.carries⟩

/-- The same after `connect`. -/
theorem C89_after_connect (env : ClientEnv) (reads : List Bytes) (sock : Socket) (s : TlsStream) (h : Option ClientHandshake)
    (hcl : ∀ c, env.config.clientCert = some c → c.raw.length < 2 ^ 24) (hn : ∀ n, env.config.serverName = some n → n.length < 2 ^ 24)
    (hin : sock.incoming.flatten.length < 2 ^ 24) (hw : ClientConnection.connect env reads sock = (.ok s, h)) :
    ∃ r u, ClientCompleted env reads sock s r ∧ (r.x.cs.asU16, u) ∈ Tls13.suites ∧ u.hash = r.x.sess.hash ∧ u.keyLength = r.x.sess.keyLength ∧
      Carries r.x.cs.asU16 u s (r.x.sess.appSecret r.transcript .client) (r.x.sess.appSecret r.transcript .server) := by
  obtain ⟨r, hr⟩ := C45_client_connects env reads sock s h hcl hn hin hw
  obtain ⟨hs, hello, share, e1, e2, e3, e4, e5, e6, e7, e8, e9, e10⟩ := hr.answered
  obtain ⟨p, hp, hpc, hpw, hpr⟩ := hr.keys
  obtain ⟨u, h1, h2, h3, h4⟩ := ChannelProof.transport e8 e9 hp hpc hpw hpr
  exact ⟨r, u, hr, h1, h2, h3, h4.carries⟩

/-- The hypotheses are met: both ends of the library complete a handshake with each other. -/
example : ∃ se ce sreads creads ssock csock ss cs h h', ServerConnection.accept se sreads ssock = (.ok ss, h) ∧ ClientConnection.connect ce creads csock = (.ok cs, h') ∧
    se.config.cert.raw.length < 2 ^ 24 ∧ (∀ c, ce.config.clientCert = some c → c.raw.length < 2 ^ 24) ∧ (∀ n, ce.config.serverName = some n → n.length < 2 ^ 24) ∧
    csock.incoming.flatten.length < 2 ^ 24 := by
  obtain ⟨se, ce, sreads, creads, ssock, csock, ss, cs, h, h', r, context, auth, fin, r', h1, h2, _, _, _, h3, h4, h5, h6, _⟩ := C88_example
  exact ⟨se, ce, sreads, creads, ssock, csock, ss, cs, h, h', h1, h2, h3, h4, h5, h6⟩

end ATLS
