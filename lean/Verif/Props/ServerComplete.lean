import Verif.Proof.ServerFwd
import Verif.Proof.Leftover
import Verif.Props.Delivery
/-
C75: the server completes the handshake with every client that answers as RFC 8446 prescribes.
-/
namespace ATLS
open ATLS.Model ATLS.Spec FlowProof

/-- What a conforming client does with a server: its ClientHello record can be answered, and its further records carry, in this order and protected
with the client's handshake traffic key, the requested proof of identity (none without a client CA) and its Finished message. `rest`: bytes that may
follow the Finished message in its record. -/
structure Conforming (env : ServerEnv) (reads : List Bytes) (r : Exchange) (rng : Rng) (context : Option Bytes) (auth : List Bytes) (rest : Bytes)
    (records : List Bytes) : Prop where
  hello : Tls13.IsRecord 22#8 r.ch r.chRec
  answered : HelloAnsweredBy env reads r.x r.ch r.sh r.ccs rng
  drawn : Drawn env rng context
  flight : ServerFlight env r.x context r.flight
  proof : ClientAuth env r.x context r.transcript auth
  records : Tls13.ProtectedFlight (aead r.x.c) (r.x.sess.key .client) (r.x.sess.iv .client) 0
    (auth ++ [r.x.sess.finished .client (r.transcript ++ auth.flatten) ++ rest]) records

/-- A complete record that is not an alert. -/
def NoAlert (w : Bytes) : Prop := ∃ t c, t ∈ [20#8, 22#8, 23#8] ∧ Tls13.IsRecord t c w

theorem NoAlert.whole {w : Bytes} (h : NoAlert w) : Tls13.WholeRecord w := by
  obtain ⟨t, c, ht, hr⟩ := h
  refine ⟨t, c, ?_, hr⟩
  simp only [List.mem_cons, List.not_mem_nil, or_false] at ht ⊢
  rcases ht with h | h | h <;> simp [h]

theorem NoAlert.not_alert {w : Bytes} (h : NoAlert w) : ¬ ∃ c, Tls13.IsRecord 21#8 c w := by
  obtain ⟨t, c, ht, v1, v2, _, rfl⟩ := h
  rintro ⟨c', u1, u2, _, he⟩
  have : t = 21#8 := by
    have := congrArg List.head? he
    simpa using this
  subst this
  revert ht
  decide

/-- C75: the server completes the handshake with every conforming client, however the client's records (with any further records, except alerts,
behind them) are grouped into reads. It sends ServerHello, change_cipher_spec if the client asked for it, and its flight, each message in a
protected record; the stream it hands out has the application traffic keys of the session. -/
theorem C75_server_completes (env : ServerEnv) (reads : List Bytes) (r : Exchange) (rng : Rng) (context : Option Bytes) (auth : List Bytes) (rest : Bytes)
    (records tail incoming : List Bytes) (hu : env.config.prngType = .urandom) (hcert : env.config.cert.raw.length + 200 ≤ 2 ^ 24)
    (hc : Conforming env reads r rng context auth rest records) (htail : ∀ w ∈ tail, NoAlert w)
    (hd : Tls13.Delivers 4096 (r.chRec :: (records ++ tail)) incoming) :
    ∃ s h swire p, ServerConnection.accept env reads ⟨incoming, [], []⟩ = (.ok s, h) ∧
      Tls13.Sent (aead r.x.c) (r.x.sess.key .server) (r.x.sess.iv .server) 0 r.flight swire ∧
      s.stream.written = Tls13.plainRecord 22#8 r.sh ++ r.ccs ++ swire ∧
      s.protection = some p ∧ p.cipher = r.x.c ∧ p.isClient = false ∧
      RecProof.wKey p = r.x.appKey r.transcript .server ∧ RecProof.rKey p = r.x.appKey r.transcript .client := by
  have hl : r.ch.length ≤ 4096 := by
    have := delivered_le hd r.chRec (by simp)
    obtain ⟨v1, v2, _, he⟩ := hc.hello
    rw [he] at this
    simp only [List.length_append] at this
    omega
  obtain ⟨k, swire, hx, hlen, h1, h2, h3, _⟩ := ServerProof.server_feed hu hcert hc.hello hl hc.answered hc.drawn hc.flight hc.proof hc.records htail
  have hall : ∀ w ∈ r.chRec :: (records ++ tail), NoAlert w := by
    intro w hw
    rcases List.mem_cons.1 hw with rfl | hw
    · exact ⟨22#8, r.ch, by decide, hc.hello⟩
    rcases List.mem_append.1 hw with hw | hw
    · obtain ⟨t, c, ht, hr⟩ := flight_whole hx hc.records (by simp; omega) w hw
      exact ⟨t, c, by rcases ht with rfl | rfl <;> decide, hr⟩
    · exact htail w hw
  obtain ⟨s, g1, g2, g3, _⟩ := ServerProof.accept_ready env reads (fun w hw => (hall w hw).whole) hd
    (fun a w b hab k' _ _ => (hall w (by rw [← hab]; simp)).not_alert) h1 h3.state
  obtain ⟨p, q1, q2, q3, q4, q5⟩ := h3.prot
  exact ⟨s, _, swire, p, g1, h2, g3.trans h3.out, by rw [g2]; exact q1, q2, q5, q3, q4⟩

namespace ServerProof

theorem proper_flight {a : Tls13.Seal} {key iv : Bytes} {seq : Nat} {contents records : List Bytes} (h : Tls13.ProtectedFlight a key iv seq contents records) :
    (proper records).length ≤ contents.length := by
  induction h with
  | nil => simp [proper]
  | ccs seq cs c w ws h1 _ ih =>
    obtain ⟨v1, v2, _, rfl⟩ := h1
    simpa [proper] using ih
  | cons seq c cs w ws _ _ ih =>
    have : (proper (w :: ws)).length ≤ (proper ws).length + 1 := by
      unfold proper
      rw [List.filter_cons]
      split <;> simp
    simp only [List.length_cons]
    omega

end ServerProof

/-- C75, what is left: when the last of the client's records is not a change_cipher_spec record, the server stops reading with it. Whatever arrives in later reads is
left for the application. -/
theorem C75_server_leaves (env : ServerEnv) (reads : List Bytes) (r : Exchange) (rng : Rng) (context : Option Bytes) (auth : List Bytes) (rest : Bytes)
    (records : List Bytes) (last : Bytes) (incoming more : List Bytes) (hu : env.config.prngType = .urandom) (hcert : env.config.cert.raw.length + 200 ≤ 2 ^ 24)
    (hc : Conforming env reads r rng context auth rest (records ++ [last])) (hlast : last.head? ≠ some 20#8)
    (hd : Tls13.Delivers 4096 (r.chRec :: (records ++ [last])) incoming) :
    ∃ s h swire p, ServerConnection.accept env reads ⟨incoming ++ more, [], []⟩ = (.ok s, h) ∧
      Tls13.Sent (aead r.x.c) (r.x.sess.key .server) (r.x.sess.iv .server) 0 r.flight swire ∧
      s.stream.written = Tls13.plainRecord 22#8 r.sh ++ r.ccs ++ swire ∧
      s.protection = some p ∧ p.cipher = r.x.c ∧ p.isClient = false ∧
      RecProof.wKey p = r.x.appKey r.transcript .server ∧ RecProof.rKey p = r.x.appKey r.transcript .client ∧ s.stream.incoming = more ∧ s.stream.failures = [] := by
  have hl : r.ch.length ≤ 4096 := by
    have := delivered_le hd r.chRec (by simp)
    obtain ⟨v1, v2, _, he⟩ := hc.hello
    rw [he] at this
    simp only [List.length_append] at this
    omega
  obtain ⟨k, swire, hx, hlen, h1, h2, h3, _⟩ := ServerProof.server_feed (tail := []) hu hcert hc.hello hl hc.answered hc.drawn hc.flight hc.proof hc.records (by simp)
  have hall : ∀ w ∈ r.chRec :: (records ++ [last]), NoAlert w := by
    intro w hw
    rcases List.mem_cons.1 hw with rfl | hw
    · exact ⟨22#8, r.ch, by decide, hc.hello⟩
    · obtain ⟨t, c, ht, hr⟩ := flight_whole hx hc.records (by simp; omega) w hw
      exact ⟨t, c, by rcases ht with rfl | rfl <;> decide, hr⟩
  rw [List.append_nil] at h1
  have hcount : (ServerProof.proper (r.chRec :: records)).length < if env.config.clientCertCa.isSome then 4 else 2 := by
    have e1 := ServerProof.proper_flight hc.records
    have e2 : (ServerProof.proper (records ++ [last])).length = (ServerProof.proper records).length + 1 := by simp [ServerProof.proper, hlast]
    have e3 : (ServerProof.proper (r.chRec :: records)).length ≤ (ServerProof.proper records).length + 1 := by
      unfold ServerProof.proper
      rw [List.filter_cons]
      split <;> simp
    have e4 := hc.proof
    unfold ClientAuth at e4
    simp only [List.length_append, List.length_singleton] at e1
    cases hca : env.config.clientCertCa with
    | none =>
      rw [hca] at e4
      rw [e4] at e1
      simp only [List.length_nil] at e1
      simp
      omega
    | some ca =>
      rw [hca] at e4
      obtain ⟨m1, m2, _, rfl, _⟩ := e4
      simp only [List.length_cons, List.length_nil] at e1
      simp
      omega
  obtain ⟨s, g1, g2, g3, _, g5, g6⟩ := ServerProof.accept_left env reads (records := r.chRec :: records) more (fun w hw => (hall w hw).whole) hd h1 h3.state hcount
  obtain ⟨p, q1, q2, q3, q4, q5⟩ := h3.prot
  exact ⟨s, _, swire, p, g1, h2, g3.trans h3.out, by rw [g2]; exact q1, q2, q5, q3, q4, g5, g6⟩

/-- C75, no deadlock: the server sends its whole flight as soon as it has the ClientHello, before it reads anything else, and then waits. -/
theorem C75_server_flight_first (env : ServerEnv) (reads : List Bytes) (r : Exchange) (rng : Rng) (context : Option Bytes)
    (hu : env.config.prngType = .urandom) (hcert : env.config.cert.raw.length + 200 ≤ 2 ^ 24) (hello : Tls13.IsRecord 22#8 r.ch r.chRec)
    (answered : HelloAnsweredBy env reads r.x r.ch r.sh r.ccs rng) (drawn : Drawn env rng context) (flight : ServerFlight env r.x context r.flight)
    (hl : r.chRec.length ≤ 4096) :
    ∃ h swire, ServerConnection.accept env reads ⟨[r.chRec], [], []⟩ = (.err .brokenPipe, h) ∧
      Tls13.Sent (aead r.x.c) (r.x.sess.key .server) (r.x.sess.iv .server) 0 r.flight swire ∧
      h.stream.stream.written = Tls13.plainRecord 22#8 r.sh ++ r.ccs ++ swire := by
  have hl' : r.ch.length ≤ 4096 := by
    obtain ⟨v1, v2, _, he⟩ := hello
    rw [he] at hl
    simp only [List.length_append] at hl
    omega
  obtain ⟨swire, k, _, h2, h3, h4, h5⟩ := ServerProof.server_first hu hcert hello hl' answered drawn flight
  have hna : ∀ w ∈ [r.chRec], NoAlert w := by
    intro w hw
    rw [List.mem_singleton.1 hw]
    exact ⟨22#8, r.ch, by decide, hello⟩
  obtain ⟨h, g1, g2⟩ := ServerProof.accept_waiting env reads (fun w hw => (hna w hw).whole) (Tls13.delivers_single (records := [r.chRec]) (by simpa using hl))
    (fun a w b hab k' _ _ => (hna w (by rw [← hab]; simp)).not_alert) h3 h5
  exact ⟨h, swire, g1, h2, g2.trans h4⟩

end ATLS
