import Verif.Proof.Ccs
import Verif.Proof.Pieces
import Verif.Props.DeliveryDefs
/-
The outcome of `accept` over reads that consist of whole records, and of `connect` over reads that may cut records.
-/
namespace ATLS.FlowProof
open ATLS ATLS.Model ATLS.Spec

theorem alike_out {i j : List Bytes} {s t : TlsStream} (h : Alike i j s t) (hs : s.buffer = []) (ht : t.buffer = []) : t.stream.written = s.stream.written := by
  have := h.output
  unfold out at this
  rwa [hs, ht, List.append_nil, List.append_nil] at this

theorem sum_le_len (l : List (List Bytes)) : l.length < ((l.map List.flatten).map List.length).sum + (l.map List.flatten).length + 2 := by
  rw [List.length_map]; omega

end ATLS.FlowProof

namespace ATLS.ServerProof
open ATLS ATLS.Model ATLS.Spec ServerHandshake FlowProof

/-- The state before the first record, of a connection with nothing to read. -/
def base (env : ServerEnv) (rng : List Bytes) : ServerHandshake := ServerHandshake.new env (TlsStream.new ⟨[], [], []⟩) rng

/-- No unprotected alert follows the record that completes the handshake. -/
def Quiet (env : ServerEnv) (records : List Bytes) (k : ServerHandshake) : Prop :=
  ∀ a w b, a ++ w :: b = records → ∀ k', feed env a k = (.ok (), k') → k'.state = .ready → ¬ ∃ c, Tls13.IsRecord 21#8 c w

theorem run_outcome (env : ServerEnv) (rng : List Bytes) {records reads : List Bytes} (hw : ∀ w ∈ records, Tls13.WholeRecord w) (hd : Tls13.Delivers 4096 records reads)
    (hq : Quiet env records (base env rng)) :
    Outcome (feed env records (base env rng)) (doHandshake env (ServerHandshake.new env (TlsStream.new ⟨reads, [], []⟩) rng)) := by
  obtain ⟨groups, rfl, rfl, hg⟩ := hd
  unfold doHandshake
  refine reads_feed env groups _ [] _ _ (fun g hgm => ⟨fun w hwm => hw w (List.mem_flatten.2 ⟨g, hgm, hwm⟩), hg g hgm⟩) (sum_le_len groups) ?_ rfl hq
  exact ⟨_, rfl, rfl, rfl, rfl, rfl, rfl, rfl⟩

/-- What `accept` makes of the state after `ServerHandshake::new`. -/
def conclude (env : ServerEnv) (h : ServerHandshake) : Res TlsError TlsStream × ServerHandshake :=
  match doHandshakeWithError env h with
  | (.ok _, h) => (.ok h.stream, h)
  | (.err e, h) => (.err e, h)
  | (.panic, h) => (.panic, h)

theorem same_of {i j : List Bytes} {env : ServerEnv} {h1 h2 k1 k2 : ServerHandshake} {r : Res TlsError Unit} (e1 : doHandshake env h1 = (r, k1)) (e2 : doHandshake env h2 = (r, k2))
    (ha : r ≠ .panic → Alike i j k1 k2) (hb : r = .ok () → k1.stream.buffer = [] ∧ k2.stream.buffer = []) :
    SameResult (conclude env h1).1 (conclude env h2).1 ∧ ((conclude env h1).1 ≠ .panic → (conclude env h2).2.logged = (conclude env h1).2.logged) := by
  unfold conclude doHandshakeWithError
  rw [e1, e2]
  cases r with
  | panic => exact ⟨trivial, fun h => absurd rfl h⟩
  | ok u =>
    obtain ⟨b1, b2⟩ := hb rfl
    obtain ⟨s, rfl, hs⟩ := ha (by simp)
    exact ⟨⟨alike_out hs b1 b2, hs.protection, by rw [b1]; exact b2⟩, fun _ => rfl⟩
  | err e =>
    obtain ⟨s, rfl, hs⟩ := ha (by simp)
    simp only []
    split_ifs
    · have hal := hs.alert e
      rw [Step.bind_eq, Step.bind_eq]
      unfold onStream
      simp only []
      rcases ha1 : k1.stream.writeAlert e with ⟨r1, t1⟩
      rcases ha2 : s.writeAlert e with ⟨r2, t2⟩
      rw [ha1, ha2] at hal
      simp only [] at hal
      subst hal
      cases r1 with
      | ok u => exact ⟨rfl, fun _ => rfl⟩
      | err e => exact ⟨rfl, fun _ => rfl⟩
      | panic => exact ⟨trivial, fun h => absurd rfl h⟩
    · exact ⟨rfl, fun _ => rfl⟩

theorem alike_join {i j l : List Bytes} {k h1 h2 : ServerHandshake} (a1 : Alike i j k h1) (a2 : Alike i l k h2) : Alike j l h1 h2 := by
  obtain ⟨s, rfl, hs⟩ := a1
  obtain ⟨t, rfl, ht⟩ := a2
  exact ⟨t, rfl, ht.protection.trans hs.protection.symm, ht.output.trans hs.output.symm, hs.calm', ht.calm', hs.pending', ht.pending'⟩

/-- Record sequences that are handled alike have the same outcome, whatever reads deliver them. -/
theorem accept_same (env : ServerEnv) (rng : List Bytes) {records reads records' reads' : List Bytes}
    (hw : ∀ w ∈ records, Tls13.WholeRecord w) (hd : Tls13.Delivers 4096 records reads) (hq : Quiet env records (base env rng))
    (hw' : ∀ w ∈ records', Tls13.WholeRecord w) (hd' : Tls13.Delivers 4096 records' reads') (hq' : Quiet env records' (base env rng))
    (he : feed env records' (base env rng) = feed env records (base env rng)) :
    SameResult (ServerConnection.accept env rng ⟨reads, [], []⟩).1 (ServerConnection.accept env rng ⟨reads', [], []⟩).1 ∧
    ((ServerConnection.accept env rng ⟨reads, [], []⟩).1 ≠ .panic →
      (ServerConnection.accept env rng ⟨reads', [], []⟩).2.logged = (ServerConnection.accept env rng ⟨reads, [], []⟩).2.logged) := by
  have o1 := run_outcome env rng hw hd hq
  have o2 := run_outcome env rng hw' hd' hq'
  rw [he] at o2
  rcases e1 : doHandshake env (ServerHandshake.new env (TlsStream.new ⟨reads, [], []⟩) rng) with ⟨r1, k1⟩
  rcases e2 : doHandshake env (ServerHandshake.new env (TlsStream.new ⟨reads', [], []⟩) rng) with ⟨r2, k2⟩
  rw [e1] at o1
  rw [e2] at o2
  rcases hfe : feed env records (base env rng) with ⟨_ | e | _, k⟩ <;> rw [hfe] at o1 o2
  · unfold Outcome at o1 o2
    simp only [] at o1 o2
    by_cases hs : k.state = .ready
    · rw [if_pos hs] at o1 o2
      obtain ⟨rfl, a1, b1⟩ := o1
      obtain ⟨rfl, a2, b2⟩ := o2
      exact same_of e1 e2 (fun _ => alike_join a1 a2) (fun _ => ⟨b1, b2⟩)
    · rw [if_neg hs] at o1 o2
      obtain ⟨rfl, a1, _⟩ := o1
      obtain ⟨rfl, a2, _⟩ := o2
      exact same_of e1 e2 (fun _ => alike_join a1 a2) (fun h => by cases h)
  · unfold Outcome at o1 o2
    simp only [] at o1 o2
    obtain ⟨rfl, a1⟩ := o1
    obtain ⟨rfl, a2⟩ := o2
    exact same_of e1 e2 (fun _ => alike_join a1 a2) (fun h => by cases h)
  · unfold Outcome at o1 o2
    simp only [] at o1 o2
    subst o1
    subst o2
    exact same_of (i := []) (j := []) e1 e2 (fun h => absurd rfl h) (fun h => by cases h)

/-- When the records complete the handshake, `accept` succeeds. -/
theorem accept_ready (env : ServerEnv) (rng : List Bytes) {records reads : List Bytes} {k : ServerHandshake} (hw : ∀ w ∈ records, Tls13.WholeRecord w)
    (hd : Tls13.Delivers 4096 records reads) (hq : Quiet env records (base env rng)) (hk : feed env records (base env rng) = (.ok (), k)) (hr : k.state = .ready) :
    ∃ s, ServerConnection.accept env rng ⟨reads, [], []⟩ = (.ok s, { k with stream := s }) ∧ s.protection = k.stream.protection ∧
      s.stream.written = out k.stream ∧ s.buffer = [] := by
  have o := run_outcome env rng hw hd hq
  rw [hk] at o
  unfold Outcome at o
  simp only [] at o
  rw [if_pos hr] at o
  obtain ⟨o1, ⟨s, hks, hs⟩, o3⟩ := o
  rcases e1 : doHandshake env (ServerHandshake.new env (TlsStream.new ⟨reads, [], []⟩) rng) with ⟨r1, k1⟩
  rw [e1] at o1 o3 hks
  simp only [] at o1 o3 hks
  subst o1 hks
  refine ⟨s, ?_, hs.protection, ?_, o3⟩
  · unfold ServerConnection.accept doHandshakeWithError
    rw [e1]
  · have := hs.output
    unfold out at this
    rw [show s.buffer = [] from o3, List.append_nil] at this
    exact this

/-- When the records do not complete the handshake, everything prepared so far is sent and the server waits for more. -/
theorem accept_waiting (env : ServerEnv) (rng : List Bytes) {records reads : List Bytes} {k : ServerHandshake} (hw : ∀ w ∈ records, Tls13.WholeRecord w)
    (hd : Tls13.Delivers 4096 records reads) (hq : Quiet env records (base env rng)) (hk : feed env records (base env rng) = (.ok (), k)) (hr : k.state ≠ .ready) :
    ∃ h, ServerConnection.accept env rng ⟨reads, [], []⟩ = (.err .brokenPipe, h) ∧ h.stream.stream.written = out k.stream := by
  have o := run_outcome env rng hw hd hq
  rw [hk] at o
  unfold Outcome at o
  simp only [] at o
  rw [if_neg hr] at o
  obtain ⟨o1, ⟨s, hks, hs⟩, o3⟩ := o
  rcases e1 : doHandshake env (ServerHandshake.new env (TlsStream.new ⟨reads, [], []⟩) rng) with ⟨r1, k1⟩
  rw [e1] at o1 o3 hks
  simp only [] at o1 o3 hks
  subst o1 hks
  refine ⟨{ k with stream := s }, ?_, ?_⟩
  · unfold ServerConnection.accept doHandshakeWithError
    rw [e1]
    simp only []
    rw [if_neg (by decide)]
    rfl
  · have := hs.output
    unfold out at this
    rw [show s.buffer = [] from o3, List.append_nil] at this
    exact this

/-- The condition on alerts, stated with the outcome of `accept`. -/
theorem quiet_of (env : ServerEnv) (rng : List Bytes) {records : List Bytes} (hw : ∀ w ∈ records, Tls13.WholeRecord w) (hl : ∀ w ∈ records, w.length ≤ 4096)
    (hq : ∀ a w b, records = a ++ w :: b → (∃ c, Tls13.IsRecord 21#8 c w) → ∀ s h, ServerConnection.accept env rng ⟨a, [], []⟩ ≠ (.ok s, h)) :
    Quiet env records (base env rng) := by
  have key : ∀ (n : Nat) (a : List Bytes) (w : Bytes) (b : List Bytes), a.length = n → a ++ w :: b = records → ∀ k', feed env a (base env rng) = (.ok (), k') →
      k'.state = .ready → ¬ ∃ c, Tls13.IsRecord 21#8 c w := by
    intro n
    induction n using Nat.strong_induction_on with
    | _ n ih =>
      intro a w b hn hab k' hk' hr hc
      have hmem : ∀ v ∈ a, v ∈ records := fun v hv => by rw [← hab]; simp [hv]
      obtain ⟨s, hs, _⟩ := accept_ready env rng (fun v hv => hw v (hmem v hv)) (Tls13.delivers_single fun v hv => hl v (hmem v hv)) (fun a' w' b' hab' k'' hk'' hr'' =>
        ih a'.length (by rw [← hn, ← hab']; simp) a' w' (b' ++ w :: b) rfl (by rw [← hab, ← hab']; simp) k'' hk'' hr'') hk' hr
      exact hq a w b hab.symm hc s _ hs
  exact fun a w b h1 k' h2 h3 => key a.length a w b rfl h1 k' h2 h3

end ATLS.ServerProof

namespace ATLS.ClientProof
open ATLS ATLS.Model ATLS.Spec ClientHandshake FlowProof

/-- The same state of a connection with other bytes to read. -/
def withReads (reads : List Bytes) (h : ClientHandshake) : ClientHandshake :=
  { h with stream := { h.stream with stream := { h.stream.stream with incoming := reads } } }

theorem hello_reads (env : ClientEnv) (reads : List Bytes) (h : ClientHandshake) :
    sendClientHello env (withReads reads h) = ((sendClientHello env h).1, withReads reads (sendClientHello env h).2) := by
  unfold sendClientHello
  rw [Step.bind_get, Step.bind_get]
  simp only [withReads]
  rw [Step.bind_eq, Step.bind_eq]
  rcases (h.rng.bytes 32 : Res TlsError (Bytes × Rng)) with ⟨random, rng⟩ | e | _
  · simp only [Step.lift]
    rw [Step.bind_eq, Step.bind_eq]
    rcases (rng.bytes 32 : Res TlsError (Bytes × Rng)) with ⟨sid, rng'⟩ | e | _
    · simp only [Step.lift]
      rw [Step.bind_modify, Step.bind_modify, Step.bind_eq, Step.bind_eq]
      rcases keyShareOf h.privateKey with kse | e | _
      · simp only [Step.lift]
        rw [Step.bind_eq, Step.bind_eq]
        rcases ((ClientHello.ofClient random sid kse.opaq env.config.serverName).asBytes : Res TlsError Bytes) with body | e | _
        · simp only [Step.lift]
          rw [Step.bind_modify, Step.bind_modify]
          unfold onStream TlsStream.tcpWrite Socket.write
          rcases h with ⟨⟨⟨i, f, w⟩, p, b⟩, h2, h3, h4, h5, h6, h7, h8, h9, h10, h11⟩
          rcases f with _ | ⟨_ | _ | n, fs⟩
          · rfl
          · rfl
          · rfl
          · rfl
        · rfl
        · rfl
      · rfl
      · rfl
    · rfl
    · rfl
  · rfl
  · rfl

/-- The state before the ClientHello is sent, of a connection with nothing to read. -/
def first (n : Int) (rng : Rng) : ClientHandshake where
  stream := TlsStream.new ⟨[], [], []⟩
  state := .serverHello
  certificateRequest := none
  keylog := none
  rng := rng
  tshash := none
  privateKey := ⟨.curve25519, n⟩
  serverCert := none
  clientHelloBytes := none
  clientHelloRandom := none
  logged := []

/-- No unprotected alert follows the record that completes the handshake. -/
def Quiet (env : ClientEnv) (records : List Bytes) (k : ClientHandshake) : Prop :=
  ∀ a w b, a ++ w :: b = records → ∀ k', feed env a k = (.ok (), k') → k'.state = .ready → ¬ ∃ c, Tls13.IsRecord 21#8 c w

/-- The state `k` after the ClientHello is sent, of a connection with nothing to read. -/
def Opened (env : ClientEnv) (rng : List Bytes) (k : ClientHandshake) : Prop :=
  ∃ n g, ((Rng.urandom rng).between 1 32 : Res TlsError (Int × Rng)) = .ok (n, g) ∧ sendClientHello env (first n g) = (.ok (), k)

/-- Nothing is buffered, nothing is to be read and no write fails. -/
def Idle (h : ClientHandshake) : Prop := h.stream.buffer = [] ∧ h.stream.stream.failures = [] ∧ h.stream.stream.incoming = []

theorem hello_idle (env : ClientEnv) : Step.Pres Idle (sendClientHello env) := by
  unfold sendClientHello
  pres
  · exact fun _ h => h
  · exact fun _ h => h
  · intro h hi
    rcases h with ⟨⟨⟨i, f, w⟩, p, b⟩, _⟩
    obtain ⟨h1, h2, h3⟩ := hi
    simp only at h1 h2 h3
    subst h1 h2 h3
    exact ⟨rfl, rfl, rfl⟩

theorem withReads_alike {reads : List Bytes} {k : ClientHandshake} (h : Idle k) : Alike [] reads k (withReads reads k) :=
  ⟨_, rfl, rfl, rfl, h.2.1, h.2.1, h.2.2, rfl⟩

theorem run_reads (env : ClientEnv) {n : Int} {g : Rng} {k : ClientHandshake} (hk : sendClientHello env (first n g) = (.ok (), k)) (reads : List Bytes) :
    doHandshake env (withReads reads (first n g)) = readLoop env ((reads.map List.length).sum + reads.length + 2) [] (withReads reads k) := by
  unfold doHandshake
  have := hello_reads env reads (first n g)
  rw [hk] at this
  have hi : (withReads reads k).stream.stream.incoming = reads := rfl
  refine (Step.bind_of_ok this).trans ?_
  simp only [hi]

theorem run_outcome (env : ClientEnv) {n : Int} {g : Rng} {k : ClientHandshake} (hk : sendClientHello env (first n g) = (.ok (), k))
    {records reads : List Bytes} (hw : ∀ w ∈ records, Tls13.WholeRecord w) (hd : Tls13.Pieces 2048 [] records reads) (hq : Quiet env records k) :
    Outcome (feed env records k) (doHandshake env (withReads reads (first n g))) := by
  have hi : Idle k := by
    have := hello_idle env (first n g) ⟨rfl, rfl, rfl⟩
    rwa [hk] at this
  rw [run_reads env hk]
  exact reads_pieces env le_rfl reads [] records _ [] _ _ hd hw (by show reads.length < _ + reads.length + 2; omega) (withReads_alike hi) hi.1 hq

/-- What `connect` makes of the state after `ClientHandshake::new`. -/
def conclude (env : ClientEnv) (h : ClientHandshake) : Res TlsError TlsStream × ClientHandshake :=
  match doHandshakeWithError env h with
  | (.ok _, h) => (.ok h.stream, h)
  | (.err e, h) => (.err e, h)
  | (.panic, h) => (.panic, h)

theorem same_of {i j : List Bytes} {env : ClientEnv} {h1 h2 k1 k2 : ClientHandshake} {r : Res TlsError Unit} (e1 : doHandshake env h1 = (r, k1)) (e2 : doHandshake env h2 = (r, k2))
    (ha : r ≠ .panic → Alike i j k1 k2) (hb : r = .ok () → k1.stream.buffer = [] ∧ k2.stream.buffer = []) :
    SameResult (conclude env h1).1 (conclude env h2).1 ∧ ((conclude env h1).1 ≠ .panic → (conclude env h2).2.logged = (conclude env h1).2.logged) := by
  unfold conclude doHandshakeWithError
  rw [e1, e2]
  cases r with
  | panic => exact ⟨trivial, fun h => absurd rfl h⟩
  | ok u =>
    obtain ⟨b1, b2⟩ := hb rfl
    obtain ⟨s, rfl, hs⟩ := ha (by simp)
    exact ⟨⟨alike_out hs b1 b2, hs.protection, by rw [b1]; exact b2⟩, fun _ => rfl⟩
  | err e =>
    obtain ⟨s, rfl, hs⟩ := ha (by simp)
    simp only []
    split_ifs
    · have hal := hs.alert e
      rw [Step.bind_eq, Step.bind_eq]
      unfold onStream
      simp only []
      rcases ha1 : k1.stream.writeAlert e with ⟨r1, t1⟩
      rcases ha2 : s.writeAlert e with ⟨r2, t2⟩
      rw [ha1, ha2] at hal
      simp only [] at hal
      subst hal
      cases r1 with
      | ok u => exact ⟨rfl, fun _ => rfl⟩
      | err e => exact ⟨rfl, fun _ => rfl⟩
      | panic => exact ⟨trivial, fun h => absurd rfl h⟩
    · exact ⟨rfl, fun _ => rfl⟩

theorem alike_join {i j l : List Bytes} {k h1 h2 : ClientHandshake} (a1 : Alike i j k h1) (a2 : Alike i l k h2) : Alike j l h1 h2 := by
  obtain ⟨s, rfl, hs⟩ := a1
  obtain ⟨t, rfl, ht⟩ := a2
  exact ⟨t, rfl, ht.protection.trans hs.protection.symm, ht.output.trans hs.output.symm, hs.calm', ht.calm', hs.pending', ht.pending'⟩

theorem connect_eq (env : ClientEnv) {rng : List Bytes} {n : Int} {g : Rng} (hb : ((Rng.urandom rng).between 1 32 : Res TlsError (Int × Rng)) = .ok (n, g)) (reads : List Bytes) :
    ClientConnection.connect env rng ⟨reads, [], []⟩ = ((conclude env (withReads reads (first n g))).1, some (conclude env (withReads reads (first n g))).2) := by
  unfold ClientConnection.connect ClientHandshake.new conclude
  rw [hb]
  show (match doHandshakeWithError env (withReads reads (first n g)) with
    | (.ok _, h) => ((.ok h.stream, some h) : Res TlsError TlsStream × Option ClientHandshake)
    | (.err e, h) => (.err e, some h)
    | (.panic, h) => (.panic, some h)) = _
  rcases doHandshakeWithError env (withReads reads (first n g)) with ⟨_ | _ | _, h⟩ <;> rfl

/-- Record sequences that are handled alike have the same outcome, whatever reads deliver them. -/
theorem connect_alike (env : ClientEnv) (rng : List Bytes) {records reads records' reads' : List Bytes}
    (ho1 : ∀ n g k, ((Rng.urandom rng).between 1 32 : Res TlsError (Int × Rng)) = .ok (n, g) → sendClientHello env (first n g) = (.ok (), k) →
      Outcome (feed env records k) (doHandshake env (withReads reads (first n g))))
    (ho2 : ∀ n g k, ((Rng.urandom rng).between 1 32 : Res TlsError (Int × Rng)) = .ok (n, g) → sendClientHello env (first n g) = (.ok (), k) →
      Outcome (feed env records' k) (doHandshake env (withReads reads' (first n g))))
    (he : ∀ k, Opened env rng k → feed env records' k = feed env records k) :
    SameResult (ClientConnection.connect env rng ⟨reads, [], []⟩).1 (ClientConnection.connect env rng ⟨reads', [], []⟩).1 ∧
    ((ClientConnection.connect env rng ⟨reads, [], []⟩).1 ≠ .panic →
      (ClientConnection.connect env rng ⟨reads', [], []⟩).2.map (·.logged) = (ClientConnection.connect env rng ⟨reads, [], []⟩).2.map (·.logged)) := by
  cases hb : ((Rng.urandom rng).between 1 32 : Res TlsError (Int × Rng)) with
  | err e =>
    unfold ClientConnection.connect ClientHandshake.new
    rw [hb]
    exact ⟨rfl, fun _ => rfl⟩
  | panic =>
    unfold ClientConnection.connect ClientHandshake.new
    rw [hb]
    exact ⟨trivial, fun _ => rfl⟩
  | ok v =>
    obtain ⟨n, g⟩ := v
    rw [connect_eq env hb, connect_eq env hb]
    have key : SameResult (conclude env (withReads reads (first n g))).1 (conclude env (withReads reads' (first n g))).1 ∧
        ((conclude env (withReads reads (first n g))).1 ≠ .panic →
          (conclude env (withReads reads' (first n g))).2.logged = (conclude env (withReads reads (first n g))).2.logged) := by
      rcases hk : sendClientHello env (first n g) with ⟨r, k⟩
      have hi : Idle k := by
        have := hello_idle env (first n g) ⟨rfl, rfl, rfl⟩
        rwa [hk] at this
      have h1 := hello_reads env reads (first n g)
      have h2 := hello_reads env reads' (first n g)
      rw [hk] at h1 h2
      cases r with
      | err e =>
        exact same_of (by unfold doHandshake; exact Step.bind_of_err h1) (by unfold doHandshake; exact Step.bind_of_err h2)
          (fun _ => alike_join (withReads_alike hi) (withReads_alike hi)) (fun h => by cases h)
      | panic =>
        exact same_of (i := []) (j := []) (by unfold doHandshake; exact Step.bind_of_panic h1) (by unfold doHandshake; exact Step.bind_of_panic h2)
          (fun h => absurd rfl h) (fun h => by cases h)
      | ok u =>
        have ho : Opened env rng k := ⟨n, g, hb, hk⟩
        have o1 := ho1 n g k hb hk
        have o2 := ho2 n g k hb hk
        rw [he k ho] at o2
        rcases e1 : doHandshake env (withReads reads (first n g)) with ⟨r1, k1⟩
        rcases e2 : doHandshake env (withReads reads' (first n g)) with ⟨r2, k2⟩
        rw [e1] at o1
        rw [e2] at o2
        rcases hfe : feed env records k with ⟨_ | e | _, k⟩ <;> rw [hfe] at o1 o2
        · unfold Outcome at o1 o2
          simp only [] at o1 o2
          by_cases hs : k.state = .ready
          · rw [if_pos hs] at o1 o2
            obtain ⟨rfl, a1, b1⟩ := o1
            obtain ⟨rfl, a2, b2⟩ := o2
            exact same_of e1 e2 (fun _ => alike_join a1 a2) (fun _ => ⟨b1, b2⟩)
          · rw [if_neg hs] at o1 o2
            obtain ⟨rfl, a1, _⟩ := o1
            obtain ⟨rfl, a2, _⟩ := o2
            exact same_of e1 e2 (fun _ => alike_join a1 a2) (fun h => by cases h)
        · unfold Outcome at o1 o2
          simp only [] at o1 o2
          obtain ⟨rfl, a1⟩ := o1
          obtain ⟨rfl, a2⟩ := o2
          exact same_of e1 e2 (fun _ => alike_join a1 a2) (fun h => by cases h)
        · unfold Outcome at o1 o2
          simp only [] at o1 o2
          subst o1
          subst o2
          exact same_of (i := []) (j := []) e1 e2 (fun h => absurd rfl h) (fun h => by cases h)
    exact ⟨key.1, fun h => by simp only [Option.map_some, key.2 h]⟩

theorem connect_same (env : ClientEnv) (rng : List Bytes) {records reads records' reads' : List Bytes}
    (hw : ∀ w ∈ records, Tls13.WholeRecord w) (hd : Tls13.Pieces 2048 [] records reads) (hq : ∀ k, Opened env rng k → Quiet env records k)
    (hw' : ∀ w ∈ records', Tls13.WholeRecord w) (hd' : Tls13.Pieces 2048 [] records' reads') (hq' : ∀ k, Opened env rng k → Quiet env records' k)
    (he : ∀ k, Opened env rng k → feed env records' k = feed env records k) :
    SameResult (ClientConnection.connect env rng ⟨reads, [], []⟩).1 (ClientConnection.connect env rng ⟨reads', [], []⟩).1 ∧
    ((ClientConnection.connect env rng ⟨reads, [], []⟩).1 ≠ .panic →
      (ClientConnection.connect env rng ⟨reads', [], []⟩).2.map (·.logged) = (ClientConnection.connect env rng ⟨reads, [], []⟩).2.map (·.logged)) :=
  connect_alike env rng (fun n g k hb hk => run_outcome env hk hw hd (hq k ⟨n, g, hb, hk⟩)) (fun n g k hb hk => run_outcome env hk hw' hd' (hq' k ⟨n, g, hb, hk⟩)) he

/-- When the records complete the handshake, `connect` succeeds. -/
theorem connect_ready (env : ClientEnv) {rng : List Bytes} {n : Int} {g : Rng} {k0 : ClientHandshake}
    (hb : ((Rng.urandom rng).between 1 32 : Res TlsError (Int × Rng)) = .ok (n, g)) (hk0 : sendClientHello env (first n g) = (.ok (), k0))
    {records reads : List Bytes} {k : ClientHandshake} (hw : ∀ w ∈ records, Tls13.WholeRecord w)
    (hd : Tls13.Pieces 2048 [] records reads) (hq : Quiet env records k0) (hk : feed env records k0 = (.ok (), k)) (hr : k.state = .ready) :
    ∃ s, ClientConnection.connect env rng ⟨reads, [], []⟩ = (.ok s, some { k with stream := s }) ∧ s.protection = k.stream.protection ∧
      s.stream.written = out k.stream ∧ s.buffer = [] := by
  have o := run_outcome env hk0 hw hd hq
  rw [hk] at o
  unfold Outcome at o
  simp only [] at o
  rw [if_pos hr] at o
  obtain ⟨o1, ⟨s, hks, hs⟩, o3⟩ := o
  rcases e1 : doHandshake env (withReads reads (first n g)) with ⟨r1, k1⟩
  rw [e1] at o1 o3 hks
  simp only [] at o1 o3 hks
  subst o1 hks
  refine ⟨s, ?_, hs.protection, ?_, o3⟩
  · rw [connect_eq env hb]
    unfold conclude doHandshakeWithError
    rw [e1]
  · have := hs.output
    unfold out at this
    rw [show s.buffer = [] from o3, List.append_nil] at this
    exact this

/-- When the records do not complete the handshake, everything prepared so far is sent and the client waits for more. -/
theorem connect_waiting (env : ClientEnv) {rng : List Bytes} {n : Int} {g : Rng} {k0 : ClientHandshake}
    (hb : ((Rng.urandom rng).between 1 32 : Res TlsError (Int × Rng)) = .ok (n, g)) (hk0 : sendClientHello env (first n g) = (.ok (), k0))
    {records reads : List Bytes} {k : ClientHandshake} (hw : ∀ w ∈ records, Tls13.WholeRecord w)
    (hd : Tls13.Pieces 2048 [] records reads) (hq : Quiet env records k0) (hk : feed env records k0 = (.ok (), k)) (hr : k.state ≠ .ready) :
    ∃ h, ClientConnection.connect env rng ⟨reads, [], []⟩ = (.err .brokenPipe, some h) ∧ h.stream.stream.written = out k.stream := by
  have o := run_outcome env hk0 hw hd hq
  rw [hk] at o
  unfold Outcome at o
  simp only [] at o
  rw [if_neg hr] at o
  obtain ⟨o1, ⟨s, hks, hs⟩, o3⟩ := o
  rcases e1 : doHandshake env (withReads reads (first n g)) with ⟨r1, k1⟩
  rw [e1] at o1 o3 hks
  simp only [] at o1 o3 hks
  subst o1 hks
  refine ⟨{ k with stream := s }, ?_, ?_⟩
  · rw [connect_eq env hb]
    unfold conclude doHandshakeWithError
    rw [e1]
    simp only []
    rw [if_neg (by decide)]
    rfl
  · have := hs.output
    unfold out at this
    rw [show s.buffer = [] from o3, List.append_nil] at this
    exact this

/-- The condition on alerts, stated with the outcome of `connect`. -/
theorem quiet_of (env : ClientEnv) (rng : List Bytes) {records : List Bytes} (hw : ∀ w ∈ records, Tls13.WholeRecord w) 
    (hq : ∀ a w b, records = a ++ w :: b → (∃ c, Tls13.IsRecord 21#8 c w) → ∀ reads, Tls13.Pieces 2048 [] a reads →
      ∀ s h, ClientConnection.connect env rng ⟨reads, [], []⟩ ≠ (.ok s, h)) :
    ∀ k, Opened env rng k → Quiet env records k := by
  rintro k ⟨n, g, hb, hk⟩
  have key : ∀ (m : Nat) (a : List Bytes) (w : Bytes) (b : List Bytes), a.length = m → a ++ w :: b = records → ∀ k', feed env a k = (.ok (), k') →
      k'.state = .ready → ¬ ∃ c, Tls13.IsRecord 21#8 c w := by
    intro m
    induction m using Nat.strong_induction_on with
    | _ m ih =>
      intro a w b hn hab k' hk' hr hc
      have hmem : ∀ v ∈ a, v ∈ records := fun v hv => by rw [← hab]; simp [hv]
      obtain ⟨reads, hreads⟩ := Tls13.pieces_exist (cap := 2048) (by omega) a fun h0 => absurd (whole_fromRaw (hw _ (hmem _ h0))).1 (by simp)
      obtain ⟨s, hs, _⟩ := connect_ready env hb hk (fun v hv => hw v (hmem v hv)) hreads (fun a' w' b' hab' k'' hk'' hr'' =>
        ih a'.length (by rw [← hn, ← hab']; simp) a' w' (b' ++ w :: b) rfl (by rw [← hab, ← hab']; simp) k'' hk'' hr'') hk' hr
      exact hq a w b hab.symm hc reads hreads s _ hs
  exact fun a w b h1 k' h2 h3 => key a.length a w b rfl h1 k' h2 h3

theorem conclude_ok {env : ClientEnv} {h : ClientHandshake} {s : TlsStream} (hc : (conclude env h).1 = .ok s) : ∃ h', doHandshake env h = (.ok (), h') := by
  unfold conclude doHandshakeWithError at hc
  rcases hd : doHandshake env h with ⟨r, h1⟩
  rw [hd] at hc
  cases r with
  | ok u => exact ⟨h1, rfl⟩
  | panic => cases hc
  | err e =>
    exfalso
    simp only [] at hc
    split_ifs at hc
    · rw [Step.bind_eq] at hc
      rcases ha : onStream (fun s => s.writeAlert e) h1 with ⟨_ | _ | _, h2⟩ <;> rw [ha] at hc <;> cases hc
    · cases hc

/-- A client that completes the handshake has sent its ClientHello. -/
theorem connect_opened {env : ClientEnv} {rng reads : List Bytes} {s : TlsStream} {h : Option ClientHandshake} (hok : ClientConnection.connect env rng ⟨reads, [], []⟩ = (.ok s, h)) :
    ∃ n g k k', ((Rng.urandom rng).between 1 32 : Res TlsError (Int × Rng)) = .ok (n, g) ∧ sendClientHello env (first n g) = (.ok (), k) ∧
      doHandshake env (withReads reads (first n g)) = (.ok (), k') := by
  obtain ⟨n, g, hb⟩ : ∃ n g, ((Rng.urandom rng).between 1 32 : Res TlsError (Int × Rng)) = .ok (n, g) := by
    unfold ClientConnection.connect ClientHandshake.new at hok
    cases hb : ((Rng.urandom rng).between 1 32 : Res TlsError (Int × Rng)) with
    | err e => rw [hb] at hok; cases hok
    | panic => rw [hb] at hok; cases hok
    | ok v => exact ⟨v.1, v.2, rfl⟩
  rw [connect_eq env hb] at hok
  obtain ⟨k', hk'⟩ := conclude_ok (congrArg Prod.fst hok)
  have h1 := hello_reads env reads (first n g)
  rcases hk : sendClientHello env (first n g) with ⟨r, k⟩
  rw [hk] at h1
  cases r with
  | ok u => exact ⟨n, g, k, k', hb, hk, hk'⟩
  | err e =>
    have h2 : doHandshake env (withReads reads (first n g)) = (.err e, withReads reads k) := by unfold doHandshake; exact Step.bind_of_err h1
    rw [h2] at hk'
    cases hk'
  | panic =>
    have h2 : doHandshake env (withReads reads (first n g)) = (.panic, withReads reads k) := by unfold doHandshake; exact Step.bind_of_panic h1
    rw [h2] at hk'
    cases hk'

end ATLS.ClientProof
