import Verif.Props.Truncated
import Verif.Props.Retry
/-
C91: the truncated hellos that crash a server or a client.
-/
namespace ATLS
open ATLS.Spec ATLS.Model FlowProof

/-- The handling of a ClientHello whose parsing panics. -/
theorem HelloProof.handle_panic (env : ServerEnv) (record : Record) (k : ServerHandshake) (body : Bytes) (hb : body.length < 2 ^ 24)
    (hf : record.fraqment = Tls13.handshakeMessage 1#8 body) (hp : ClientHello.fromRaw body = .panic) :
    ServerHandshake.handleClientHello env record k = (.panic, k) := by
  have h0 : Handshake.fromRaw record.fraqment = .ok ⟨.clientHello, body, Tls13.handshakeMessage 1#8 body⟩ := by
    have := FlowProof.fromRaw_message .clientHello body [] hb
    rw [List.append_nil] at this
    rw [hf]; exact this
  unfold ServerHandshake.handleClientHello
  rw [Step.bind_lift_ok h0]
  simp only [ne_eq, not_true_eq_false, if_false]
  exact Step.bind_of_panic (s := k) (by show (ClientHello.fromRaw body, k) = _; rw [hp])

theorem HelloProof.server_length (h : Tls13.ServerHelloMsg) (hv : h.Valid) : h.bytes.length < 2 ^ 24 := by
  have := hv.len
  have h1 := hv.sessionId
  have h2 := hv.random
  simp only [Tls13.ServerHelloMsg.bytes, Tls13.vec2, List.length_append, beBytes_length, List.length_singleton]
  omega

/-- Every server, whatever its configuration, that gets a ClientHello which ends too early — the first `k` bytes of any valid one, in a handshake
message and a record of their own — crashes without sending anything, unless `k < 45` or the end lies within the list of the suites (and leaves the
length of the list whole): then it ends the handshake with the alert illegal_parameter. -/
theorem C91_truncated_accept (env : ServerEnv) (rng : List Bytes) (hello : Tls13.ClientHelloMsg) (w : Bytes) (k : Nat) (hv : hello.Valid)
    (hs : hello.sessionId.length = 0 ∨ hello.sessionId.length = 32) (hk : k < hello.bytes.length)
    (hw : Tls13.IsRecord 22#8 (Tls13.handshakeMessage 1#8 (hello.bytes.take k)) w) (hl : w.length ≤ 4096) (reads : List Bytes) :
    if k < 45 ∨ (37 + hello.sessionId.length ≤ k ∧ k < 35 + hello.sessionId.length + 2 * hello.suites.length) then
      ∃ h, ServerConnection.accept env rng ⟨w :: reads, [], []⟩ = (.err .illegalParameter, h) ∧
        h.stream.stream.written = Tls13.plainRecord 21#8 [2#8, 47#8]
    else ∃ h, ServerConnection.accept env rng ⟨w :: reads, [], []⟩ = (.panic, h) ∧ h.stream.stream.written = [] := by
  have hp := C37_truncated_client hello hv hs k hk
  have hb : (hello.bytes.take k).length < 2 ^ 24 := by
    have := HelloProof.hello_length hello hv
    rw [List.length_take]
    omega
  by_cases hc : k < 45 ∨ (37 + hello.sessionId.length ≤ k ∧ k < 35 + hello.sessionId.length + 2 * hello.suites.length)
  · rw [if_pos hc] at hp ⊢
    exact ServerProof.first_error env rng (e := .illegalParameter) hw hl reads (by simp [NotAnswered]) fun record k' hf =>
      HelloProof.handle_refused env record k' _ hb hf hp
  · rw [if_neg hc] at hp ⊢
    exact ServerProof.first_panic env rng hw hl reads fun record k' hf => HelloProof.handle_panic env record k' _ hb hf hp

/-- Every client that gets a ServerHello which ends too early crashes, unless the end lies within the first 36 bytes, or behind a suite the client
does not know: then it ends the handshake with an alert. -/
theorem C91_truncated_connect (env : ClientEnv) (rng : List Bytes) (n : Int) (ch : Bytes) (hello : Tls13.ServerHelloMsg) (w : Bytes) (k : Nat)
    (ho : Offered env rng n ch) (hv : hello.Valid) (hs : hello.sessionId.length = 0 ∨ hello.sessionId.length = 32) (hk : k < hello.bytes.length)
    (hw : Tls13.IsRecord 22#8 (Tls13.handshakeMessage 2#8 (hello.bytes.take k)) w) (hl : w.length ≤ 2048) (reads : List Bytes) :
    if k < 36 then
      ∃ h, ClientConnection.connect env rng ⟨w :: reads, [], []⟩ = (.err .illegalParameter, some h) ∧
        h.stream.stream.written = Tls13.plainRecord 22#8 ch ++ Tls13.plainRecord 21#8 [2#8, 47#8]
    else if 37 + hello.sessionId.length ≤ k ∧ hello.suite ∉ Tls13.suiteCodes.map Prod.fst then
      ∃ h, ClientConnection.connect env rng ⟨w :: reads, [], []⟩ = (.err .insufficientSecurity, some h) ∧
        h.stream.stream.written = Tls13.plainRecord 22#8 ch ++ Tls13.plainRecord 21#8 [2#8, 71#8]
    else ∃ h, ClientConnection.connect env rng ⟨w :: reads, [], []⟩ = (.panic, some h) ∧ h.stream.stream.written = Tls13.plainRecord 22#8 ch := by
  have hp := C37_truncated_server hello hv hs k hk
  have hb : (hello.bytes.take k).length < 2 ^ 24 := by
    have := HelloProof.server_length hello hv
    rw [List.length_take]
    omega
  by_cases h1 : k < 36
  · rw [if_pos h1] at hp ⊢
    exact ClientProof.first_error ho (e := .illegalParameter) hw hl reads (by simp [NotAnswered]) fun record k' hf _ =>
      HelloProof.handle_stop env record k' _ hb hf (by simp) hp
  · rw [if_neg h1] at hp ⊢
    by_cases h2 : 37 + hello.sessionId.length ≤ k ∧ hello.suite ∉ Tls13.suiteCodes.map Prod.fst
    · rw [if_pos h2] at hp ⊢
      exact ClientProof.first_error ho (e := .insufficientSecurity) hw hl reads (by simp [NotAnswered]) fun record k' hf _ =>
        HelloProof.handle_stop env record k' _ hb hf (by simp) hp
    · rw [if_neg h2] at hp ⊢
      exact ClientProof.first_panic ho hw hl reads fun record k' hf _ =>
        HelloProof.handle_stop env record k' _ hb hf (by simp) hp

/-- A record with the first 60 bytes of a valid ClientHello crashes every server. -/
example (env : ServerEnv) (rng : List Bytes) : ∃ h w, ServerConnection.accept env rng ⟨[w], [], []⟩ = (.panic, h) ∧ w.length = 69 := by
  have := C91_truncated_accept env rng HelloProof.emptyShares (Tls13.plainRecord 22#8 (Tls13.handshakeMessage 1#8 (HelloProof.emptyShares.bytes.take 60)))
    60 HelloProof.emptyShares_valid (by decide) (by decide +kernel) ⟨3#8, 3#8, by decide +kernel, rfl⟩ (by decide +kernel) []
  rw [if_neg (by decide +kernel)] at this
  obtain ⟨h, h1, _⟩ := this
  exact ⟨h, _, h1, by decide +kernel⟩

/-- A record with the first 80 bytes of a valid ServerHello crashes the example client. -/
example : ∃ h w, ClientConnection.connect (exampleClient none) [zeros 100, zeros 100, zeros 100] ⟨[w], [], []⟩ = (.panic, some h) ∧ w.length = 89 := by
  obtain ⟨ch, ho, _⟩ := HelloProof.retry_met
  have hv : (Tls13.ServerHelloMsg.mk (zeros 32) (zeros 32) 0x1301 [.keyShare (29, zeros 32), .supportedVersions 0x0304]).Valid := by
    refine ⟨rfl, by decide, by decide, ?_, by decide⟩
    intro e he
    simp only [List.mem_cons, List.not_mem_nil, or_false] at he
    rcases he with rfl | rfl
    · exact ⟨by norm_num, by simp [zeros]⟩
    · show (0x0304 : Nat) < 65536
      norm_num
  have := C91_truncated_connect _ _ _ _ _ (Tls13.plainRecord 22#8 (Tls13.handshakeMessage 2#8 ((Tls13.ServerHelloMsg.mk (zeros 32) (zeros 32) 0x1301
    [.keyShare (29, zeros 32), .supportedVersions 0x0304]).bytes.take 80))) 80 ho hv (by decide) (by decide +kernel)
    ⟨3#8, 3#8, by decide +kernel, rfl⟩ (by decide +kernel) []
  rw [if_neg (by decide), if_neg (by decide)] at this
  obtain ⟨h, h1, _⟩ := this
  exact ⟨h, _, h1, by decide +kernel⟩

end ATLS
