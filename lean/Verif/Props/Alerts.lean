import Verif.Proof.ServerPres
import Verif.Proof.Server
import Verif.Props.Handshake
import Verif.Props.Config
/-
C49: alerts and errors of the handshake, the server's side. C58: the server's key log.
-/
namespace ATLS
open ATLS.Model ATLS.Spec

/-- The stream `s'` results from `s` by reads, flushes, changes of the keys and by giving the records `l` (type and content) to the record
layer, in this order. -/
inductive Handed : TlsStream → List (RecordType × Bytes) → TlsStream → Prop
  | refl (s : TlsStream) : Handed s [] s
  | write {s s1 s2 : TlsStream} {l : List (RecordType × Bytes)} {r : Res TlsError Unit} (t : RecordType) (d : Bytes) :
      Handed s l s1 → s1.writeRecord t d = (r, s2) → Handed s (l ++ [(t, d)]) s2
  | hello {s s1 s2 : TlsStream} {l : List (RecordType × Bytes)} {r : Res TlsError Unit} (t : RecordType) (d : Bytes) :
      Handed s l s1 → s1.tcpWrite (Record.new t d).asBytes = (r, s2) → Handed s (l ++ [(t, d)]) s2
  | read {s s1 s2 : TlsStream} {l : List (RecordType × Bytes)} {r : Res TlsError Bytes} (cap : Nat) :
      Handed s l s1 → s1.tcpRead cap = (r, s2) → Handed s l s2
  | flush {s s1 s2 : TlsStream} {l : List (RecordType × Bytes)} {r : Res TlsError Unit} : Handed s l s1 → s1.flush = (r, s2) → Handed s l s2
  | protect {s s1 : TlsStream} {l : List (RecordType × Bytes)} (p : Option RecordPayloadProtection) : Handed s l s1 → Handed s l (s1.setProtection p)

/-- Records without an alert among them were given to the record layer. -/
def NoAlertSent (s s' : TlsStream) : Prop := ∃ l, Handed s l s' ∧ ∀ x ∈ l, x.1 ≠ .alert

/-- The errors that mean "an alert came in" or "the connection is gone" (and the marker between the official alerts and these). -/
def NotAnswered (e : TlsError) : Prop := (∃ c, e = .gotAlert c) ∨ e = .brokenPipe ∨ e = .notOfficial

/-- The content of the alert record for an error: level and description. -/
def alertContent (e : TlsError) : Bytes := [(AlertLevel.getFromError e).code, e.asU8]

/-- The bytes an alert record adds to the wire when the socket takes them: without protection the plaintext record, else its encryption. -/
def AlertWritten (s : TlsStream) (e : TlsError) (written : Bytes) : Prop :=
  match s.protection with
  | none => written = Tls13.plainRecord 21#8 (alertContent e)
  | some p => (∃ p', p.encrypt (Record.new .alert (alertContent e)) = (.ok written, p')) ∨
      (written = [] ∧ ∀ wire p', p.encrypt (Record.new .alert (alertContent e)) ≠ (.ok wire, p'))

namespace AlertProof

theorem notAnswered_iff (e : TlsError) : NotAnswered e ↔ ¬ e.discr < TlsError.notOfficial.discr := by
  unfold NotAnswered
  cases e <;> simp [TlsError.discr]

theorem writeAlert_written (s : TlsStream) (e : TlsError) (hf : s.stream.failures = []) :
    ∃ w, (s.writeAlert e).2.stream.written = s.stream.written ++ w ∧ AlertWritten s e w ∧ (s.writeAlert e).2.buffer = s.buffer := by
  unfold TlsStream.writeAlert TlsStream.protectRecord AlertWritten
  cases hp : s.protection with
  | none =>
    refine ⟨_, ?_, rfl, ?_⟩
    · simp only [Socket.writeAll, hf, alertContent]
      rw [if_neg (by simp [Record.asBytes]), ServerProof.new_bytes]
      rfl
    · simp only [Socket.writeAll, hf]
      rw [if_neg (by simp [Record.asBytes])]
  | some p =>
    simp only []
    rcases he : p.encrypt (Record.new .alert (alertContent e)) with ⟨r, p'⟩
    have he' : p.encrypt (Record.new .alert [(AlertLevel.getFromError e).code, e.asU8]) = (r, p') := he
    rw [he']
    cases r with
    | ok wire =>
      refine ⟨wire, ?_, .inl ⟨p', rfl⟩, ?_⟩
      · simp only [Socket.writeAll, hf]
        by_cases hw : wire = []
        · rw [if_pos hw, hw]; simp
        · rw [if_neg hw]
      · simp only [Socket.writeAll, hf]
        by_cases hw : wire = []
        · rw [if_pos hw]
        · rw [if_neg hw]
    | err e' => exact ⟨[], by simp, .inr ⟨rfl, fun _ _ hh => by cases hh⟩, rfl⟩
    | panic => exact ⟨[], by simp, .inr ⟨rfl, fun _ _ hh => by cases hh⟩, rfl⟩

theorem server_keeps (env : ServerEnv) (s0 : TlsStream) : ServerProof.Keeps env fun h => NoAlertSent s0 h.stream where
  write t d ht := by
    rintro h ⟨l, h1, h2⟩
    refine ⟨l ++ [(t, d)], h1.write t d (r := (h.stream.writeRecord t d).1) ?_, ?_⟩
    · rfl
    · intro x hx
      rcases List.mem_append.1 hx with hx | hx
      · exact h2 x hx
      · rw [List.mem_singleton.1 hx]; exact ht
  read := by
    rintro h ⟨l, h1, h2⟩
    exact ⟨l, h1.read (r := (h.stream.tcpRead 4096).1) 4096 rfl, h2⟩
  flush := by
    rintro h ⟨l, h1, h2⟩
    exact ⟨l, h1.flush (r := h.stream.flush.1) rfl, h2⟩
  protect h p := by
    rintro ⟨l, h1, h2⟩
    exact ⟨l, h1.protect p, h2⟩
  log1 p r := by
    unfold ServerHandshake.logHandshakeSecrets
    split
    · exact Step.Pres.modify fun _ hh => hh
    · exact Step.Pres.pure _
  log2 p := by
    intro h hh
    unfold ServerHandshake.logApplicationSecrets
    split
    · exact hh
    · exact hh
  frame h h' e _ _ hh := by
    show NoAlertSent s0 h'.stream
    rw [e]; exact hh

end AlertProof

/-- C49 for the server. Before the handshake ends no alert is sent. When it ends with "got an alert" or "connection broken", nothing more is
written. When it ends with any other error, exactly one alert record, with the level and the code of that error, is written (the socket
taking it). -/
theorem C49_server (env : ServerEnv) (h h1 : ServerHandshake) (e : TlsError) (hd : ServerHandshake.doHandshake env h = (.err e, h1)) :
    NoAlertSent h.stream h1.stream ∧
    (NotAnswered e → ServerHandshake.doHandshakeWithError env h = (.err (ServerHandshake.reported e), h1)) ∧
    (¬ NotAnswered e → h1.stream.stream.failures = [] → ∃ w, AlertWritten h1.stream e w ∧
      (ServerHandshake.doHandshakeWithError env h).2.stream.stream.written = h1.stream.stream.written ++ w ∧
      (ServerHandshake.doHandshakeWithError env h).2.stream.buffer = h1.stream.buffer) := by
  refine ⟨?_, ?_, ?_⟩
  · have := (AlertProof.server_keeps env h.stream).handshake h ⟨[], .refl _, by simp⟩
    rw [hd] at this
    exact this
  · intro hn
    unfold ServerHandshake.doHandshakeWithError
    rw [hd]
    simp only []
    rw [if_neg ((AlertProof.notAnswered_iff e).1 hn)]
    rfl
  · intro hn hf
    obtain ⟨w, h2, h3, h4⟩ := AlertProof.writeAlert_written h1.stream e hf
    have hl : e.discr < TlsError.notOfficial.discr := by
      by_contra hc
      exact hn ((AlertProof.notAnswered_iff e).2 hc)
    have hfin : (ServerHandshake.doHandshakeWithError env h).2.stream = (h1.stream.writeAlert e).2 := by
      unfold ServerHandshake.doHandshakeWithError
      rw [hd]
      simp only []
      rw [if_pos hl, Step.bind_eq]
      unfold ServerHandshake.onStream
      rcases hw : h1.stream.writeAlert e with ⟨r, s⟩
      simp only [hw]
      cases r <;> rfl
    refine ⟨w, h3, ?_, ?_⟩
    · rw [hfin]; exact h2
    · rw [hfin]; exact h4

/-- A received alert ends the handshake with "got an alert": in plaintext at any time, and protected once there are keys. -/
theorem C49_received (env : ServerEnv) (h : ServerHandshake) (record : Record) (level code : Byte) (more : Bytes) :
    (record.contentType = .alert → record.fraqment = level :: code :: more → ServerHandshake.handleRecord env record h = (.err (.gotAlert code), h)) ∧
    (∀ p p', h.stream.protection = some p → p.decrypt record = (.ok (.alert, level :: code :: more), p') →
      h.state ≠ .clientHello → h.state ≠ .ready → record.contentType = .applicationData →
      ServerHandshake.handleRecord env record h = (.err (.gotAlert code), { h with stream := h.stream.setProtection (some p') })) := by
  constructor
  · intro h1 h2
    unfold ServerHandshake.handleRecord
    rw [Step.bind_get, h1, h2]
    rfl
  · intro p p' h1 h2 h3 h4 h5
    have hd : ServerHandshake.decryptRecord record h = (.ok (.alert, level :: code :: more), { h with stream := h.stream.setProtection (some p') }) := by
      unfold ServerHandshake.decryptRecord
      have e1 : ServerHandshake.getProtection h = (.ok p, h) := by unfold ServerHandshake.getProtection; rw [h1]; rfl
      refine (Step.bind_of_ok e1).trans ?_
      simp only [h2]
    have he : ServerHandshake.handleEncryptedRecord env record h = (.err (.gotAlert code), { h with stream := h.stream.setProtection (some p') }) := by
      unfold ServerHandshake.handleEncryptedRecord
      rw [Step.bind_of_ok hd]
      rfl
    unfold ServerHandshake.handleRecord
    rw [Step.bind_get, h5]
    simp only []
    cases hs : h.state <;> first | exact absurd hs h3 | exact absurd hs h4 | (rw [hs] at he; exact he)

/-- A connection that is gone ends the handshake with "broken pipe". -/
theorem C49_broken (env : ServerEnv) (h : ServerHandshake) (hs : h.state ≠ .ready) (hi : h.stream.stream.incoming = []) :
    ServerHandshake.doHandshake env h = (.err .brokenPipe, h) := by
  unfold ServerHandshake.doHandshake ServerHandshake.readLoop
  rw [Step.bind_get, if_neg hs]
  have e1 : ServerHandshake.onStream (fun s => s.tcpRead 4096) h = (.err .brokenPipe, h) := by
    unfold ServerHandshake.onStream TlsStream.tcpRead
    simp only [hi]
  rw [Step.bind_of_err e1]

/-- A client that sends the alert handshake_failure gets nothing back and the server reports that alert; one that starts with a
change_cipher_spec record gets the alert unexpected_message. For every configuration. -/
example (env : ServerEnv) (reads : List Bytes) :
    (ServerConnection.accept env reads ⟨[[21, 3, 3, 0, 2, 2, 40]], [], []⟩).1 = .err .handshakeFailure ∧
    (ServerConnection.accept env reads ⟨[[21, 3, 3, 0, 2, 2, 40]], [], []⟩).2.stream.stream.written = [] ∧
    (ServerConnection.accept env reads ⟨[[20, 3, 3, 0, 1, 1]], [], []⟩).1 = .err .unexpectedMessage ∧
    (ServerConnection.accept env reads ⟨[[20, 3, 3, 0, 1, 1]], [], []⟩).2.stream.stream.written = [21, 3, 3, 0, 2, 2, 10] := by
  refine ⟨?_, ?_, ?_, ?_⟩ <;> rfl

/-! ### C58 -/

namespace AlertProof

theorem server_keeps_silent (env : ServerEnv) (hk : env.config.keylog = none) : ServerProof.Keeps env fun h => h.keylog = none ∧ h.logged = [] where
  write _ _ _ := fun _ hh => hh
  read := fun _ hh => hh
  flush := fun _ hh => hh
  protect _ _ hh := hh
  log1 p r := by
    unfold ServerHandshake.logHandshakeSecrets
    rw [hk]
    exact Step.Pres.pure _
  log2 p := by
    intro h hh
    unfold ServerHandshake.logApplicationSecrets
    rw [hh.1]
    exact hh
  frame h h' _ e1 e2 hh := by
    rw [e1, e2]
    exact hh

end AlertProof

/-- C58, server: without a key log in the configuration nothing is ever logged, whatever is received and however the handshake ends. -/
theorem C58_server_silent (env : ServerEnv) (reads : List Bytes) (sock : Socket) (hk : env.config.keylog = none) :
    (ServerConnection.accept env reads sock).2.logged = [] := by
  obtain ⟨h0, hh0⟩ : ∃ h0, h0 = ServerHandshake.new env (TlsStream.new sock) reads := ⟨_, rfl⟩
  have h1 := (AlertProof.server_keeps_silent env hk).handshake h0 (by rw [hh0]; exact ⟨rfl, rfl⟩)
  have h2 : (ServerHandshake.doHandshakeWithError env h0).2.logged = [] := by
    unfold ServerHandshake.doHandshakeWithError
    rcases hd : ServerHandshake.doHandshake env h0 with ⟨r, h2⟩
    rw [hd] at h1
    cases r with
    | ok u => exact h1.2
    | panic => exact h1.2
    | err e =>
      simp only []
      have h3 : Step.Pres (fun h => h.logged = []) (ServerHandshake.onStream fun s => s.writeAlert e) := fun _ hh => hh
      split_ifs
      · exact Step.Pres.bind h3 (fun _ => Step.Pres.throw _) h2 h1.2
      · exact h1.2
  unfold ServerConnection.accept
  rw [← hh0]
  rcases hd : ServerHandshake.doHandshakeWithError env h0 with ⟨r, h3⟩
  rw [hd] at h2
  cases r <;> exact h2

/-- What is appended to the key log file at once: two lines that state the handshake traffic secrets, or two that state the application traffic
secrets, of server and client. -/
def Chunk (random chunk : Bytes) : Prop :=
  ∃ l1 l2 server client, IsLines chunk [l1, l2] ∧
    ((States l1 "SERVER_HANDSHAKE_TRAFFIC_SECRET" random server ∧ States l2 "CLIENT_HANDSHAKE_TRAFFIC_SECRET" random client) ∨
      (States l1 "SERVER_TRAFFIC_SECRET_0" random server ∧ States l2 "CLIENT_TRAFFIC_SECRET_0" random client))

namespace AlertProof

theorem chunk_handshake (path random server client : Bytes) : Chunk random ((KeyLog.new path random).handshakeTrafficSecrets server client) := by
  obtain ⟨⟨l1, l2, h1, h2⟩, _⟩ := C58_lines path random server client
  exact ⟨l1, l2, server, client, h1, .inl h2⟩

theorem chunk_protection (path random : Bytes) (p : RecordPayloadProtection) : Chunk random ((KeyLog.new path random).fromProtection p) := by
  unfold KeyLog.fromProtection
  cases p.applicationKeys with
  | none => exact chunk_handshake _ _ _ _
  | some a =>
    obtain ⟨_, l1, l2, h1, h2⟩ := C58_lines path random a.server.trafficSecret a.client.trafficSecret
    exact ⟨l1, l2, _, _, h1, .inr h2⟩

theorem server_keeps_lines (env : ServerEnv) : ServerProof.Keeps env fun h =>
    (∀ k, h.keylog = some k → ∃ path random, k = KeyLog.new path random) ∧ ∀ c ∈ h.logged, ∃ random, Chunk random c where
  write _ _ _ := fun _ hh => hh
  read := fun _ hh => hh
  flush := fun _ hh => hh
  protect _ _ hh := hh
  log1 p r := by
    intro h hh
    unfold ServerHandshake.logHandshakeSecrets
    cases env.config.keylog with
    | none => exact hh
    | some path =>
      cases p with
      | none => exact hh
      | some p =>
        refine ⟨?_, ?_⟩
        · intro k hk
          exact ⟨path, r, (Option.some.inj hk).symm⟩
        · intro c hc
          rcases List.mem_append.1 hc with hc | hc
          · exact hh.2 c hc
          · rw [List.mem_singleton.1 hc]
            exact ⟨r, chunk_handshake _ _ _ _⟩
  log2 p := by
    intro h hh
    unfold ServerHandshake.logApplicationSecrets
    cases hk : h.keylog with
    | none => exact hh
    | some k =>
      obtain ⟨path, random, rfl⟩ := hh.1 k hk
      refine ⟨fun k' hk' => hh.1 k' (hk.trans hk'), ?_⟩
      intro c hc
      rcases List.mem_append.1 hc with hc | hc
      · exact hh.2 c hc
      · rw [List.mem_singleton.1 hc]
        exact ⟨random, chunk_protection _ _ _⟩
  frame h h' _ e1 e2 hh := by
    rw [e1, e2]
    exact hh

end AlertProof

/-- C58, server: whatever is received and however the handshake ends, everything appended to the key log is a pair of complete lines. -/
theorem C58_server_lines (env : ServerEnv) (reads : List Bytes) (sock : Socket) (chunk : Bytes)
    (hc : chunk ∈ (ServerConnection.accept env reads sock).2.logged) : ∃ random, Chunk random chunk := by
  obtain ⟨h0, hh0⟩ : ∃ h0, h0 = ServerHandshake.new env (TlsStream.new sock) reads := ⟨_, rfl⟩
  have h1 := (AlertProof.server_keeps_lines env).handshake h0 (by rw [hh0]; exact ⟨fun k hk => (by cases hk), fun c hc => (by cases hc)⟩)
  have h2 : ∀ c ∈ (ServerHandshake.doHandshakeWithError env h0).2.logged, ∃ random, Chunk random c := by
    unfold ServerHandshake.doHandshakeWithError
    rcases hd : ServerHandshake.doHandshake env h0 with ⟨r, h2⟩
    rw [hd] at h1
    cases r with
    | ok u => exact h1.2
    | panic => exact h1.2
    | err e =>
      simp only []
      have h3 : Step.Pres (fun h => ∀ c ∈ h.logged, ∃ random, Chunk random c) (ServerHandshake.onStream fun s => s.writeAlert e) := fun _ hh => hh
      split_ifs
      · exact Step.Pres.bind h3 (fun _ => Step.Pres.throw _) h2 h1.2
      · exact h1.2
  unfold ServerConnection.accept at hc
  rw [← hh0] at hc
  rcases hd : ServerHandshake.doHandshakeWithError env h0 with ⟨r, h3⟩
  rw [hd] at h2 hc
  cases r <;> exact h2 _ hc

end ATLS
