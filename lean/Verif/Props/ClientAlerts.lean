import Verif.Proof.ClientPres
import Verif.Props.Alerts
/-
C49: alerts and errors of the handshake, the client's side. C58: the client's key log.
-/
namespace ATLS
open ATLS.Model ATLS.Spec

namespace AlertProof

theorem client_keeps (env : ClientEnv) (s0 : TlsStream) : ClientProof.Keeps env fun h => NoAlertSent s0 h.stream where
  hello d := by
    rintro h ⟨l, h1, h2⟩
    refine ⟨l ++ [(.handshake, d)], h1.hello .handshake d (r := (h.stream.tcpWrite (Record.new .handshake d).asBytes).1) ?_, ?_⟩
    · rfl
    · intro x hx
      rcases List.mem_append.1 hx with hx | hx
      · exact h2 x hx
      · rw [List.mem_singleton.1 hx]; exact fun hh => by cases hh
  write t d ht := by
    rintro h ⟨l, h1, h2⟩
    refine ⟨l ++ [(t, d)], h1.write t d (r := (h.stream.writeRecord t d).1) ?_, ?_⟩
    · rfl
    · intro x hx
      rcases List.mem_append.1 hx with hx | hx
      · exact h2 x hx
      · rw [List.mem_singleton.1 hx]; exact ht
  read := by
    rintro h ⟨l, h1, h2⟩
    exact ⟨l, h1.read (r := (h.stream.tcpRead 2048).1) 2048 rfl, h2⟩
  flush := by
    rintro h ⟨l, h1, h2⟩
    exact ⟨l, h1.flush (r := h.stream.flush.1) rfl, h2⟩
  protect h p := by
    rintro ⟨l, h1, h2⟩
    exact ⟨l, h1.protect p, h2⟩
  log1 p := by
    unfold ClientHandshake.logHandshakeSecrets
    pres
    exact Step.Pres.modify fun _ hh => hh
  log2 p := by
    intro h hh
    unfold ClientHandshake.logApplicationSecrets
    split
    · exact hh
    · exact hh
  frame h h' e _ _ hh := by
    show NoAlertSent s0 h'.stream
    rw [e]; exact hh

end AlertProof

/-- C49 for the client. Before the handshake ends no alert is sent. When it ends with "got an alert" or "connection broken", nothing more is
written. When it ends with any other error, exactly one alert record, with the level and the code of that error, is written (the socket
taking it). -/
theorem C49_client (env : ClientEnv) (h h1 : ClientHandshake) (e : TlsError) (hd : ClientHandshake.doHandshake env h = (.err e, h1)) :
    NoAlertSent h.stream h1.stream ∧
    (NotAnswered e → ClientHandshake.doHandshakeWithError env h = (.err (ServerHandshake.reported e), h1)) ∧
    (¬ NotAnswered e → h1.stream.stream.failures = [] → ∃ w, AlertWritten h1.stream e w ∧
      (ClientHandshake.doHandshakeWithError env h).2.stream.stream.written = h1.stream.stream.written ++ w ∧
      (ClientHandshake.doHandshakeWithError env h).2.stream.buffer = h1.stream.buffer) := by
  refine ⟨?_, ?_, ?_⟩
  · have := (AlertProof.client_keeps env h.stream).handshake h ⟨[], .refl _, by simp⟩
    rw [hd] at this
    exact this
  · intro hn
    unfold ClientHandshake.doHandshakeWithError
    rw [hd]
    simp only []
    rw [if_neg ((AlertProof.notAnswered_iff e).1 hn)]
    rfl
  · intro hn hf
    obtain ⟨w, h2, h3, h4⟩ := AlertProof.writeAlert_written h1.stream e hf
    have hl : e.discr < TlsError.notOfficial.discr := by
      by_contra hc
      exact hn ((AlertProof.notAnswered_iff e).2 hc)
    have hfin : (ClientHandshake.doHandshakeWithError env h).2.stream = (h1.stream.writeAlert e).2 := by
      unfold ClientHandshake.doHandshakeWithError
      rw [hd]
      simp only []
      rw [if_pos hl, Step.bind_eq]
      unfold ClientHandshake.onStream
      rcases hw : h1.stream.writeAlert e with ⟨r, s⟩
      simp only [hw]
      cases r <;> rfl
    refine ⟨w, h3, ?_, ?_⟩
    · rw [hfin]; exact h2
    · rw [hfin]; exact h4

/-- A received alert ends the client's handshake with "got an alert": in plaintext at any time, and protected once there are keys. -/
theorem C49_client_received (env : ClientEnv) (h : ClientHandshake) (record : Record) (level code : Byte) (more : Bytes) :
    (record.contentType = .alert → record.fraqment = level :: code :: more → ClientHandshake.handleRecord env record h = (.err (.gotAlert code), h)) ∧
    (∀ p p', h.stream.protection = some p → p.decrypt record = (.ok (.alert, level :: code :: more), p') →
      h.state ≠ .serverHello → h.state ≠ .ready → record.contentType = .applicationData →
      ClientHandshake.handleRecord env record h = (.err (.gotAlert code), { h with stream := h.stream.setProtection (some p') })) := by
  constructor
  · intro h1 h2
    unfold ClientHandshake.handleRecord
    rw [Step.bind_get, h1, h2]
    rfl
  · intro p p' h1 h2 h3 h4 h5
    have hd : ClientHandshake.decryptRecord record h = (.ok (.alert, level :: code :: more), { h with stream := h.stream.setProtection (some p') }) := by
      unfold ClientHandshake.decryptRecord
      have e1 : ClientHandshake.getProtection h = (.ok p, h) := by unfold ClientHandshake.getProtection; rw [h1]; rfl
      refine (Step.bind_of_ok e1).trans ?_
      simp only [h2]
    have he : ClientHandshake.handleEncryptedRecord env record h = (.err (.gotAlert code), { h with stream := h.stream.setProtection (some p') }) := by
      unfold ClientHandshake.handleEncryptedRecord
      rw [Step.bind_of_ok hd]
      rfl
    unfold ClientHandshake.handleRecord
    rw [Step.bind_get, h5]
    simp only []
    cases hs : h.state <;> first | exact absurd hs h3 | exact absurd hs h4 | (rw [hs] at he; exact he)

/-- A connection that is gone ends the client's handshake with "broken pipe", once the ClientHello is sent. -/
theorem C49_client_broken (env : ClientEnv) (h h1 : ClientHandshake) (hello : ClientHandshake.sendClientHello env h = (.ok (), h1))
    (hs : h1.state ≠ .ready) (hi : h1.stream.stream.incoming = []) : ClientHandshake.doHandshake env h = (.err .brokenPipe, h1) := by
  unfold ClientHandshake.doHandshake
  refine (Step.bind_of_ok hello).trans ?_
  unfold ClientHandshake.readLoop
  rw [Step.bind_get, if_neg hs]
  have e1 : ClientHandshake.onStream (fun s => s.tcpRead 2048) h1 = (.err .brokenPipe, h1) := by
    unfold ClientHandshake.onStream TlsStream.tcpRead
    simp only [hi]
  rw [Step.bind_of_err e1]

/-! ### C58 -/

namespace AlertProof

theorem client_keeps_silent (env : ClientEnv) (hk : env.config.keylog = none) : ClientProof.Keeps env fun h => h.keylog = none ∧ h.logged = [] where
  hello _ := fun _ hh => hh
  write _ _ _ := fun _ hh => hh
  read := fun _ hh => hh
  flush := fun _ hh => hh
  protect _ _ hh := hh
  log1 p := by
    unfold ClientHandshake.logHandshakeSecrets
    rw [hk]
    exact Step.Pres.pure _
  log2 p := by
    intro h hh
    unfold ClientHandshake.logApplicationSecrets
    rw [hh.1]
    exact hh
  frame h h' _ e1 e2 hh := by
    rw [e1, e2]
    exact hh

end AlertProof

/-- C58, client: without a key log in the configuration nothing is ever logged, whatever is received and however the handshake ends. -/
theorem C58_client_silent (env : ClientEnv) (reads : List Bytes) (sock : Socket) (hk : env.config.keylog = none) (h : ClientHandshake)
    (hc : (ClientConnection.connect env reads sock).2 = some h) : h.logged = [] := by
  unfold ClientConnection.connect at hc
  cases hn : ClientHandshake.new (TlsStream.new sock) reads with
  | err e => rw [hn] at hc; cases hc
  | panic => rw [hn] at hc; cases hc
  | ok h0 =>
    have hnew : h0.keylog = none ∧ h0.logged = [] := by
      unfold ClientHandshake.new at hn
      obtain ⟨⟨secret, rng⟩, _, hn⟩ := Res.bind_eq_ok.1 hn
      have := (Res.ok.inj hn).symm
      subst this
      exact ⟨rfl, rfl⟩
    have h1 := (AlertProof.client_keeps_silent env hk).handshake h0 hnew
    have h2 : (ClientHandshake.doHandshakeWithError env h0).2.logged = [] := by
      unfold ClientHandshake.doHandshakeWithError
      rcases hd : ClientHandshake.doHandshake env h0 with ⟨r, h2⟩
      rw [hd] at h1
      cases r with
      | ok u => exact h1.2
      | panic => exact h1.2
      | err e =>
        simp only []
        have h3 : Step.Pres (fun h => h.logged = []) (ClientHandshake.onStream fun s => s.writeAlert e) := fun _ hh => hh
        split_ifs
        · exact Step.Pres.bind h3 (fun _ => Step.Pres.throw _) h2 h1.2
        · exact h1.2
    rw [hn] at hc
    simp only [] at hc
    rcases hd : ClientHandshake.doHandshakeWithError env h0 with ⟨r, h3⟩
    rw [hd] at h2 hc
    cases r <;> exact (Option.some.inj hc) ▸ h2

namespace AlertProof

theorem client_keeps_lines (env : ClientEnv) : ClientProof.Keeps env fun h =>
    (∀ k, h.keylog = some k → ∃ path random, k = KeyLog.new path random) ∧ ∀ c ∈ h.logged, ∃ random, Chunk random c where
  hello _ := fun _ hh => hh
  write _ _ _ := fun _ hh => hh
  read := fun _ hh => hh
  flush := fun _ hh => hh
  protect _ _ hh := hh
  log1 p := by
    unfold ClientHandshake.logHandshakeSecrets
    cases env.config.keylog with
    | none => exact Step.Pres.pure _
    | some path =>
      cases p with
      | none => exact Step.Pres.pure _
      | some p =>
        simp only []
        pres
        rename_i r
        intro h hh
        refine ⟨?_, ?_⟩
        · intro k hk
          exact ⟨path, r, (Option.some.inj hk).symm⟩
        · intro c hc
          rcases List.mem_append.1 hc with hc | hc
          · exact hh.2 c hc
          · rw [List.mem_singleton.1 hc]
            exact ⟨r, chunk_handshake _ _ _ _⟩
  log2 p := by
    intro h hh
    unfold ClientHandshake.logApplicationSecrets
    cases hk : h.keylog with
    | none => exact hh
    | some k =>
      obtain ⟨path, random, rfl⟩ := hh.1 k hk
      refine ⟨fun k' hk' => hh.1 k' (hk.trans hk'), ?_⟩
      intro c hc
      rcases List.mem_append.1 hc with hc | hc
      · exact hh.2 c hc
      · rw [List.mem_singleton.1 hc]
        exact ⟨random, chunk_protection _ _ _⟩
  frame h h' _ e1 e2 hh := by
    rw [e1, e2]
    exact hh

end AlertProof

/-- C58, client: whatever is received and however the handshake ends, everything appended to the key log is a pair of complete lines. -/
theorem C58_client_lines (env : ClientEnv) (reads : List Bytes) (sock : Socket) (h : ClientHandshake)
    (hc : (ClientConnection.connect env reads sock).2 = some h) : ∀ chunk ∈ h.logged, ∃ random, Chunk random chunk := by
  unfold ClientConnection.connect at hc
  cases hn : ClientHandshake.new (TlsStream.new sock) reads with
  | err e => rw [hn] at hc; cases hc
  | panic => rw [hn] at hc; cases hc
  | ok h0 =>
    have hnew : h0.keylog = none ∧ h0.logged = [] := by
      unfold ClientHandshake.new at hn
      obtain ⟨⟨secret, rng⟩, _, hn⟩ := Res.bind_eq_ok.1 hn
      have := (Res.ok.inj hn).symm
      subst this
      exact ⟨rfl, rfl⟩
    have h1 := (AlertProof.client_keeps_lines env).handshake h0
      ⟨fun k hk => (by rw [hnew.1] at hk; cases hk), fun c hc => by rw [hnew.2] at hc; cases hc⟩
    have h2 : ∀ c ∈ (ClientHandshake.doHandshakeWithError env h0).2.logged, ∃ random, Chunk random c := by
      unfold ClientHandshake.doHandshakeWithError
      rcases hd : ClientHandshake.doHandshake env h0 with ⟨r, h2⟩
      rw [hd] at h1
      cases r with
      | ok u => exact h1.2
      | panic => exact h1.2
      | err e =>
        simp only []
        have h3 : Step.Pres (fun h => ∀ c ∈ h.logged, ∃ random, Chunk random c) (ClientHandshake.onStream fun s => s.writeAlert e) := fun _ hh => hh
        split_ifs
        · exact Step.Pres.bind h3 (fun _ => Step.Pres.throw _) h2 h1.2
        · exact h1.2
    rw [hn] at hc
    simp only [] at hc
    rcases hd : ClientHandshake.doHandshakeWithError env h0 with ⟨r, h3⟩
    rw [hd] at h2 hc
    cases r <;> exact (Option.some.inj hc) ▸ h2

end ATLS
