import Verif.Props.Client
import Verif.Props.Config
/-
C78: what the key log says is true of the session: the random value of the ClientHello on the wire and the traffic secrets of RFC 8446.
-/
namespace ATLS
open ATLS.Model ATLS.Spec FlowProof

/-- The random value of a ClientHello message (RFC 8446 section 4.1.2: type 1, length 3, version 2, random 32 bytes). -/
def clientRandom (ch : Bytes) : Bytes := (ch.drop 6).take 32

/-- The chunks appended to the key log are two; the first has the two handshake traffic secrets of the session `sess`, the second the two
application traffic secrets for the transcript `messages` through the server's Finished, in the lines of the NSS key log format with the
random value `random`. -/
def LoggedSession (chunks : List Bytes) (random : Bytes) (sess : Tls13.Session) (messages : Bytes) : Prop :=
  ∃ c1 c2 l1 l2 l3 l4, chunks = [c1, c2] ∧ IsLines c1 [l1, l2] ∧ IsLines c2 [l3, l4] ∧
    States l1 "SERVER_HANDSHAKE_TRAFFIC_SECRET" random (sess.secret .server) ∧ States l2 "CLIENT_HANDSHAKE_TRAFFIC_SECRET" random (sess.secret .client) ∧
    States l3 "SERVER_TRAFFIC_SECRET_0" random (sess.appSecret messages .server) ∧ States l4 "CLIENT_TRAFFIC_SECRET_0" random (sess.appSecret messages .client)

namespace KeyLogProof

theorem logged_session (path : Bytes) (x : Params) (m : Bytes) :
    LoggedSession (hsLog (some path) x ++ appLog (some path) x m) x.random x.sess m := by
  obtain ⟨l1, l2, h1, h2, h3⟩ := (C58_lines path x.random (x.sess.secret .server) (x.sess.secret .client)).1
  obtain ⟨l3, l4, h4, h5, h6⟩ := (C58_lines path x.random (x.sess.appSecret m .server) (x.sess.appSecret m .client)).2
  exact ⟨_, _, l1, l2, l3, l4, rfl, h1, h4, h2, h3, h5, h6⟩

end KeyLogProof

/-- C78, server: a completed handshake leaves in the key log, if one is configured, the secrets of exactly this session under the random value of
the ClientHello received, and nothing otherwise. -/
theorem C78_server_log (env : ServerEnv) (reads : List Bytes) (sock : Socket) (s : TlsStream) (h : ServerHandshake)
    (hc : env.config.cert.raw.length < 2 ^ 24) (ha : ServerConnection.accept env reads sock = (.ok s, h)) :
    ∃ r context auth fin tail, Accepted env reads sock s r context auth fin tail ∧
      (env.config.keylog = none → h.logged = []) ∧
      ∀ path, env.config.keylog = some path → LoggedSession h.logged (clientRandom r.ch) r.x.sess r.transcript := by
  obtain ⟨r, context, auth, fin, tail, hA, hl⟩ := ServerProof.accepts_logged env reads sock s h hc ha
  refine ⟨r, context, auth, fin, tail, hA, fun hk => by rw [hl, hk]; rfl, fun path hk => ?_⟩
  have hr : clientRandom r.ch = r.x.random := by
    obtain ⟨rng, hs, hello, answer, pk, share, body, g1, g2, g3, g4, g5, g6, g7, _, g8, g9, g10, _, _, g11⟩ := hA.answered
    have e1 := ServerProof.hello_random (sh := []) g1 g3
    have e2 := ServerProof.hello_random (sh := r.sh) g1 g3
    rw [List.append_nil] at e1
    unfold clientRandom Params.random
    rw [← e1, g11, ← e2]
  rw [hl, hk, hr]
  exact KeyLogProof.logged_session path r.x r.transcript

/-- C78, client: the same, under the random value of the ClientHello sent. -/
theorem C78_client_log (env : ClientEnv) (reads : List Bytes) (sock : Socket) (s : TlsStream) (h : Option ClientHandshake)
    (hcl : ∀ c, env.config.clientCert = some c → c.raw.length < 2 ^ 24) (hn : ∀ n, env.config.serverName = some n → n.length < 2 ^ 24)
    (hin : sock.incoming.flatten.length < 2 ^ 24) (hw : ClientConnection.connect env reads sock = (.ok s, h)) :
    ∃ r h', h = some h' ∧ ClientCompleted env reads sock s r ∧
      (env.config.keylog = none → h'.logged = []) ∧
      ∀ path, env.config.keylog = some path → LoggedSession h'.logged (clientRandom r.ch) r.x.sess r.transcript := by
  obtain ⟨r, h', rfl, hC, hl⟩ := ClientProof.connects_logged env reads sock s h hcl hn hin hw
  refine ⟨r, h', rfl, hC, fun hk => by rw [hl, hk]; rfl, fun path hk => ?_⟩
  have hr : clientRandom r.ch = r.x.random := by
    obtain ⟨_, _, _, random, sid, _, _, _, l1, _, _, _, hch⟩ := hC.offered
    obtain ⟨_, _, _, _, _, _, _, _, _, _, _, _, hx⟩ := hC.answered
    have e1 := ClientProof.offer_random random sid (publicShare r.n) env.config.serverName [] l1
    have e2 := ClientProof.offer_random random sid (publicShare r.n) env.config.serverName r.sh l1
    rw [← hch] at e1 e2
    rw [List.append_nil] at e1
    unfold clientRandom Params.random
    rw [e1, hx, e2]
  rw [hl, hk, hr]
  exact KeyLogProof.logged_session path r.x r.transcript

end ATLS
