import Verif.Proof.Early
import Verif.Props.ClientComplete
/-
Supporting lemmas for C60: where the client's handshake stops reading.
-/
namespace ATLS.ClientProof
open ATLS ATLS.Model ATLS.Spec ClientHandshake FlowProof RecProof

/-- Reading stops with the read that completes the handshake; what arrives later stays in the socket. -/
theorem reads_stop (env : ClientEnv) (g later : List Bytes) (k1 k2 : ClientHandshake) (hg2 : feed env g k1 = (.ok (), k2)) (hr1 : k1.state ≠ .ready) (hr2 : k2.state = .ready)
    (hg : (∀ w ∈ g, Tls13.WholeRecord w) ∧ g ≠ [] ∧ g.flatten.length ≤ 2048) :
    ∀ (pre : List (List Bytes)) (fuel : Nat) (i : List Bytes) (h k : ClientHandshake),
    (∀ g ∈ pre, (∀ w ∈ g, NoAlert w) ∧ g ≠ [] ∧ g.flatten.length ≤ 2048) → pre.length + 1 < fuel →
    Alike i (pre.map List.flatten ++ g.flatten :: later) k h → h.stream.buffer = [] → feed env pre.flatten k = (.ok (), k1) →
    ∃ h', readLoop env fuel [] h = (.ok (), h') ∧ Alike i later k2 h' ∧ h'.stream.buffer = []
  | [], fuel, i, h, k, _, hf, ha, hb, hk => by
    obtain ⟨n, rfl⟩ : ∃ n, fuel = n + 2 := ⟨fuel - 2, by simp at hf; omega⟩
    have e := (Prod.mk.inj hk).2
    subst e
    obtain ⟨s, hks, hs⟩ := id ha
    subst hks
    rw [read_step env (g := g) (rest := later) (n + 1) { k with stream := s } hg.1 hg.2.1 hg.2.2 hs.pending' hr1]
    have ha' : Alike i later k { k with stream := { s with stream := { s.stream with incoming := later } } } :=
      ⟨_, rfl, hs.protection, hs.output, hs.calm, hs.calm', hs.pending, rfl⟩
    obtain ⟨h1, h2⟩ := feed_rel env g _ _ ha'
    rcases hk2 : feed env g { k with stream := { s with stream := { s.stream with incoming := later } } } with ⟨r', h1'⟩
    rw [hg2, hk2] at h1 h2
    simp only [] at h1 h2
    subst h1
    obtain ⟨h2', e1, e2, e3⟩ := alike_flush h2
    refine ⟨h2', ?_, e2, e3⟩
    refine (Step.bind_of_ok hk2).trans ((Step.bind_of_ok e1).trans ?_)
    obtain ⟨s', rfl, _⟩ := e2
    unfold readLoop
    rw [Step.bind_get, if_pos hr2]
    rfl
  | g0 :: gs, fuel, i, h, k, hpre, hf, ha, hb, hk => by
    obtain ⟨n, rfl⟩ : ∃ n, fuel = n + 1 := ⟨fuel - 1, by omega⟩
    obtain ⟨s, hks, hs⟩ := id ha
    subst hks
    have hg0 := hpre g0 (by simp)
    have hall : ∀ w ∈ (g0 :: gs).flatten, NoAlert w := by
      intro w hw
      obtain ⟨g', hg', hw'⟩ := List.mem_flatten.1 hw
      exact (hpre g' hg').1 w hw'
    have hst : k.state ≠ .ready := by
      intro hst
      rw [ready_feed env hst _ (fun w hw => (hall w hw).whole) (fun a w b hab k' _ _ => (hall w (by rw [← hab]; simp)).not_alert)] at hk
      rw [(Prod.mk.inj hk).2] at hst
      exact hr1 hst
    rw [read_step env (g := g0) (rest := gs.map List.flatten ++ g.flatten :: later) n { k with stream := s } (fun w hw => (hg0.1 w hw).whole) hg0.2.1 hg0.2.2 hs.pending' hst]
    have ha' : Alike i (gs.map List.flatten ++ g.flatten :: later) k { k with stream := { s with stream := { s.stream with incoming := gs.map List.flatten ++ g.flatten :: later } } } :=
      ⟨_, rfl, hs.protection, hs.output, hs.calm, hs.calm', hs.pending, rfl⟩
    obtain ⟨h1, h2⟩ := feed_rel env g0 _ _ ha'
    rw [List.flatten_cons, feed_append] at hk
    rcases hk1 : feed env g0 k with ⟨r, k0⟩
    rcases hk2 : feed env g0 { k with stream := { s with stream := { s.stream with incoming := gs.map List.flatten ++ g.flatten :: later } } } with ⟨r', h1'⟩
    rw [hk1, hk2] at h1 h2
    simp only [] at h1 h2
    subst h1
    rw [Step.bind_eq, hk1] at hk
    cases r with
    | err e => cases hk
    | panic => cases hk
    | ok u =>
      simp only [] at hk
      obtain ⟨h2', e1, e2, e3⟩ := alike_flush h2
      obtain ⟨h', f1, f2, f3⟩ := reads_stop env g later k1 k2 hg2 hr1 hr2 hg gs n i h2' k0 (fun g' hg' => hpre g' (by simp [hg'])) (by simpa using hf) e2 e3 hk
      exact ⟨h', (Step.bind_of_ok hk2).trans ((Step.bind_of_ok e1).trans f1), f2, f3⟩

/-- `connect` leaves in the socket what arrives after the read with the server's Finished. -/
theorem connect_stop (env : ClientEnv) {rng : List Bytes} {n : Int} {g0 : Rng} {k0 : ClientHandshake}
    (hb : ((Rng.urandom rng).between 1 32 : Res TlsError (Int × Rng)) = .ok (n, g0)) (hk0 : sendClientHello env (first n g0) = (.ok (), k0))
    {pre : List (List Bytes)} {g later : List Bytes} {k1 k2 : ClientHandshake}
    (hpre : ∀ g ∈ pre, (∀ w ∈ g, NoAlert w) ∧ g ≠ [] ∧ g.flatten.length ≤ 2048) (hg : (∀ w ∈ g, Tls13.WholeRecord w) ∧ g ≠ [] ∧ g.flatten.length ≤ 2048)
    (h1 : feed env pre.flatten k0 = (.ok (), k1)) (hr1 : k1.state ≠ .ready) (h2 : feed env g k1 = (.ok (), k2)) (hr2 : k2.state = .ready) :
    ∃ s, ClientConnection.connect env rng ⟨pre.map List.flatten ++ g.flatten :: later, [], []⟩ = (.ok s, some { k2 with stream := s }) ∧
      s.protection = k2.stream.protection ∧ s.stream.written = out k2.stream ∧ s.buffer = [] ∧ s.stream.incoming = later ∧ s.stream.failures = [] := by
  have hi : Idle k0 := by
    have := hello_idle env (first n g0) ⟨rfl, rfl, rfl⟩
    rwa [hk0] at this
  have o := reads_stop env g later k1 k2 h2 hr1 hr2 hg pre
    (((pre.map List.flatten ++ g.flatten :: later).map List.length).sum + (pre.map List.flatten ++ g.flatten :: later).length + 2) []
    (withReads (pre.map List.flatten ++ g.flatten :: later) k0) k0 hpre (by simp; omega) (withReads_alike hi) hi.1 h1
  rw [← run_reads env hk0] at o
  obtain ⟨h', e1, ⟨s, rfl, hs⟩, e3⟩ := o
  refine ⟨s, ?_, hs.protection, ?_, e3, hs.pending', hs.calm'⟩
  · rw [connect_eq env hb]
    unfold conclude doHandshakeWithError
    rw [e1]
  · have := hs.output
    unfold out at this
    rw [show s.buffer = [] from e3, List.append_nil] at this
    exact this

theorem pieces_nil {cap : Nat} {held : Bytes} {records reads : List Bytes} (h : Tls13.Pieces cap held records reads) (h0 : records = []) : reads = [] := by
  cases h with
  | done => rfl
  | whole hg => exact absurd (List.append_eq_nil_iff.1 h0).1 hg
  | begin => simp at h0
  | more => simp at h0
  | last => simp at h0

/-- The same for reads that may cut records. -/
theorem reads_stop_pieces (env : ClientEnv) {later i : List Bytes} {fin : Bytes} {k1 k2 : ClientHandshake} (hg2 : feed env [fin] k1 = (.ok (), k2)) (hr1 : k1.state ≠ .ready)
    (hr2 : k2.state = .ready) :
    ∀ (reads : List Bytes) (held : Bytes) (init : List Bytes) (fuel : Nat) (h k : ClientHandshake), Tls13.Pieces 2048 held (init ++ [fin]) reads →
    (∀ w ∈ init ++ [fin], NoAlert w) → reads.length < fuel →
    Alike i (reads ++ later) k h → h.stream.buffer = [] → feed env init k = (.ok (), k1) →
    ∃ h', readLoop env fuel held h = (.ok (), h') ∧ Alike i later k2 h' ∧ h'.stream.buffer = []
  | [], held, init, fuel, h, k, hpc, _, _, _, _, _ => by
    generalize hl : init ++ [fin] = l at hpc
    cases hpc
    simp at hl
  | rx :: reads, held, init, fuel, h, k, hpc, hall, hf, ha, hb, hk => by
    obtain ⟨n, rfl⟩ : ∃ n, fuel = n + 1 := ⟨fuel - 1, by omega⟩
    obtain ⟨g, rest, held', hl, hpc', hstep⟩ := one_read env le_rfl hpc fun w hw => (hall w hw).whole
    obtain ⟨s, hks, hs⟩ := id ha
    subst hks
    have hst : k.state ≠ .ready := by
      intro hst
      rw [ready_feed env hst init (fun w hw => (hall w (by simp [hw])).whole) (fun a w b hab k' _ _ => (hall w (by rw [← hab]; simp)).not_alert)] at hk
      rw [(Prod.mk.inj hk).2] at hst
      exact hr1 hst
    rw [hstep n (reads ++ later) { k with stream := s } hs.pending' hst]
    have ha' : Alike i (reads ++ later) k { k with stream := { s with stream := { s.stream with incoming := reads ++ later } } } :=
      ⟨_, rfl, hs.protection, hs.output, hs.calm, hs.calm', hs.pending, rfl⟩
    obtain ⟨h1, h2⟩ := feed_rel env g _ _ ha'
    rcases List.eq_nil_or_concat rest with rfl | ⟨rest', f', rfl⟩
    · obtain rfl := pieces_nil hpc' rfl
      rw [List.append_nil] at hl
      have hgk : feed env g k = (.ok (), k2) := by
        rw [← hl, feed_append, Step.bind_of_ok hk]
        exact hg2
      rcases hk2 : feed env g { k with stream := { s with stream := { s.stream with incoming := [] ++ later } } } with ⟨r', h1'⟩
      rw [hgk, hk2] at h1 h2
      simp only [] at h1 h2
      subst h1
      obtain ⟨h2', e1, e2, e3⟩ := alike_flush h2
      refine ⟨h2', ?_, e2, e3⟩
      obtain ⟨m, rfl⟩ : ∃ m, n = m + 1 := ⟨n - 1, by simp at hf; omega⟩
      refine (Step.bind_of_ok hk2).trans ((Step.bind_of_ok e1).trans ?_)
      obtain ⟨s', rfl, _⟩ := e2
      unfold readLoop
      rw [Step.bind_get, if_pos hr2]
      rfl
    · rw [List.concat_eq_append] at hl hpc'
      obtain ⟨rfl, hf'⟩ : init = g ++ rest' ∧ [fin] = [f'] := by
        rw [← List.append_assoc] at hl
        exact List.append_inj' hl rfl
      obtain rfl := (List.cons.inj hf').1
      rw [feed_append] at hk
      rcases hk1 : feed env g k with ⟨r, k0⟩
      rcases hk2 : feed env g { k with stream := { s with stream := { s.stream with incoming := reads ++ later } } } with ⟨r', h1'⟩
      rw [hk1, hk2] at h1 h2
      simp only [] at h1 h2
      subst h1
      rw [Step.bind_eq, hk1] at hk
      cases r with
      | err e => cases hk
      | panic => cases hk
      | ok u =>
        simp only [] at hk
        obtain ⟨h2', e1, e2, e3⟩ := alike_flush h2
        obtain ⟨h', f1, f2, f3⟩ := reads_stop_pieces env hg2 hr1 hr2 reads held' rest' n h2' k0 hpc'
          (fun w hw => hall w (by simp only [List.mem_append] at hw ⊢; tauto)) (by simpa using hf) e2 e3 hk
        exact ⟨h', (Step.bind_of_ok hk2).trans ((Step.bind_of_ok e1).trans f1), f2, f3⟩

theorem plain_snoc {a : Tls13.Seal} {key iv : Bytes} {f fin : Bytes} : ∀ {seq : Nat} {cs ws : List Bytes}, Plain a key iv seq cs ws →
    Tls13.Protected a key iv (seq + cs.length) 22#8 f fin → Plain a key iv seq (cs ++ [f]) (ws ++ [fin])
  | seq, [], ws, h, hf => by
    rw [Plain] at h
    subst h
    exact ⟨fin, [], rfl, hf, rfl⟩
  | seq, c :: cs, _, ⟨w, rest, rfl, h1, h2⟩, hf => by
    refine ⟨w, rest ++ [fin], rfl, h1, plain_snoc h2 ?_⟩
    rw [List.length_cons, show seq + (cs.length + 1) = seq + 1 + cs.length by omega] at hf
    exact hf

/-- Before the record with the server's Finished the handshake is not complete. -/
theorem client_pending {env : ClientEnv} {rng : List Bytes} {n : Int} {ch sh shRec : Bytes} {x : Params} {S : Script} {cert : Certificate} {auth init : List Bytes} {fin : Bytes}
    {groups : List (List Msg)} (ho : Offered env rng n ch) (ha : ServerAnswered x n ch sh) (hrec : Tls13.IsRecord 22#8 sh shRec) (hf : S.Fine env x cert auth)
    (hg : groups.flatten = S.msgs x) (hne : ∀ g ∈ groups, g ≠ [])
    (hr : Tls13.ProtectedFlight (aead x.c) (x.sess.key .server) (x.sess.iv .server) 0 (groups.map fun g => (g.map Msg.raw).flatten) (init ++ [fin]))
    (hfin : ¬ ∃ c, Tls13.IsRecord 20#8 c fin) {g : Rng} {k0 : ClientHandshake}
    (hb : ((Rng.urandom rng).between 1 32 : Res TlsError (Int × Rng)) = .ok (n, g)) (hsend' : sendClientHello env (first n g) = (.ok (), k0)) :
    ∃ k, feed env (shRec :: init) k0 = (.ok (), k) ∧ k.state ≠ .ready := by
  obtain ⟨g', rng', random, hb', hsend⟩ := hello_of ho
  rw [hb] at hb'
  obtain rfl := (Prod.mk.inj (Res.ok.inj hb')).2
  have hk0 := (Prod.mk.inj (hsend'.symm.trans hsend)).2
  have hst : k0.state = .serverHello := by rw [hk0]; rfl
  have hgl : groups.length < 2 ^ 60 := by
    have h1 := groups_le groups hne
    have h2 : (S.msgs x).length = S.requests.length + 4 := by simp [Script.msgs, Script.last]
    have h3 := requests_le S.ee S.requests
    have h4 := hf.short
    rw [hg, h2] at h1
    unfold Script.shown at h4
    simp only [List.length_append] at h4
    omega
  obtain ⟨v1, v2, hshl, rfl⟩ := hrec
  have hraw := RecProof.fromRaw_header .handshake v1 v2 sh [] hshl
  rw [List.append_nil] at hraw
  rw [RecProof.beBytes2]
  obtain ⟨record, hrecord⟩ : ∃ record : Record, record = ⟨.handshake, v1.toNat * 256 + v2.toNat, sh.length,
    [RecordType.handshake.code, v1, v2, BitVec.ofNat 8 (sh.length / 256), BitVec.ofNat 8 sh.length], sh⟩ := ⟨_, rfl⟩
  rw [← hrecord] at hraw
  have hfrag : record.fraqment = sh := by rw [hrecord]
  obtain ⟨p, kl, lg, e1, hx, hprot⟩ := serverHello_of (env := env) (h := k0) (record := record) (random := random) (by rw [hfrag]; exact ha) (by rw [hk0]) (by rw [hk0])
    (by have := hf.short; rw [List.length_append] at this; omega) (by rw [hk0]; rfl)
  obtain ⟨k1, hk1⟩ : ∃ k1 : ClientHandshake, k1 = { k0 with
        stream := k0.stream.setProtection (some p), tshash := some (ts x.t x.hellos), state := .encryptedExtensions, keylog := kl, logged := lg } := ⟨_, rfl⟩
  rw [← hk1] at e1
  have hh : handleRecord env record k0 = (.ok (), k1) := by
    unfold handleRecord
    rw [Step.bind_get, hst, hrecord]
    simp only []
    rw [if_neg (by decide), ← hrecord]
    exact e1
  have hpend : Pending S x cert (Tls13.plainRecord 22#8 ch) 0 groups.flatten k1 := by
    refine ⟨p, by rw [hk1]; rfl, hprot, ?_, ?_, .inl ⟨by rw [hk1], by rw [hk1], ?_, hg⟩⟩
    · rw [hk1, hk0]; rfl
    · rw [hk1, hk0]
      simp [out, TlsStream.new, TlsStream.setProtection]
    · rw [hk1, hk0]; rfl
  rcases List.eq_nil_or_concat groups with hnil | ⟨gs, gl, hgs⟩
  · rw [hnil] at hg
    simp [Script.msgs] at hg
  rw [List.concat_eq_append] at hgs
  have hsplit : (groups.map fun g => (g.map Msg.raw).flatten) = (gs.map fun g => (g.map Msg.raw).flatten) ++ [(gl.map Msg.raw).flatten] := by
    rw [hgs]; simp
  obtain ⟨q1, q2⟩ := EarlyProof.not_ccs_last hr _ _ _ _ hsplit rfl hfin
  obtain ⟨ws, hi, hpl⟩ := plain_of q1
  have hpl' := plain_snoc hpl q2
  rw [← hsplit] at hpl'
  obtain ⟨k, f1, f2, f3⟩ := groups_feed hx hf groups (ws ++ [fin]) 0 k1 (by rw [hg]; simp [Script.msgs]) hne (by omega) hpl' hpend
  obtain ⟨k', f4, _, f5⟩ := f3 ws [fin] rfl (by simp)
  refine ⟨k', ?_, f5⟩
  refine (feed_of hraw hh).trans ?_
  have h5 := feed_ccs env hi k1 (by unfold Begun; rw [hk1]; simp)
  rw [f4] at h5
  exact h5

/-- The handshake reads up to the read that contains the server's Finished and leaves the later reads alone. -/
theorem stops {env : ClientEnv} {rng : List Bytes} {n : Int} {x : Params} {ch sh shRec messages : Bytes} {auth init : List Bytes} {fin : Bytes}
    (hown : ∀ c, env.config.clientCert = some c → c.raw.length + 400 ≤ 2 ^ 24)
    (hc : ConformingServer env rng n x ch sh shRec messages auth (init ++ [fin])) (hfin : ¬ ∃ c, Tls13.IsRecord 20#8 c fin)
    {pre : List (List Bytes)} {g tail : List Bytes} (later : List Bytes) (hsplit : pre.flatten ++ g = shRec :: init) (hpre : ∀ g ∈ pre, g ≠ [] ∧ g.flatten.length ≤ 2048)
    (hg : (g ++ fin :: tail).flatten.length ≤ 2048) (htail : ∀ w ∈ tail, NoAlert w) :
    ∃ s h p cwire, ClientConnection.connect env rng ⟨pre.map List.flatten ++ (g ++ fin :: tail).flatten :: later, [], []⟩ = (.ok s, h) ∧
      Tls13.Sent (aead x.c) (x.sess.key .client) (x.sess.iv .client) 0 (auth ++ [x.sess.finished .client (messages ++ auth.flatten)]) cwire ∧
      s.stream.written = Tls13.plainRecord 22#8 ch ++ cwire ∧
      s.stream.incoming = later ∧ s.stream.failures = [] ∧ s.protection = some p ∧ p.cipher = x.c ∧ p.isClient = true ∧
      wKey p = x.appKey messages .client ∧ rKey p = x.appKey messages .server ∧ x.Ok := by
  obtain ⟨S, cert, groups, hf, hgr, hne, hmsg, hpf⟩ := script_of hown hc
  obtain ⟨gr, k0, k, hb, hs, hx, hgl, _, _, h1, h3⟩ := client_feed hc.offered hc.answered hc.hello hf hgr hne hpf htail
  have hall : ∀ w ∈ shRec :: (init ++ [fin]), NoAlert w := by
    intro w hw
    rcases List.mem_cons.1 hw with rfl | hw
    · exact ⟨22#8, sh, by decide, hc.hello⟩
    · obtain ⟨t, c, ht, hr⟩ := flight_whole hx hpf (by rw [List.length_map]; omega) w hw
      exact ⟨t, c, by rcases ht with rfl | rfl <;> decide, hr⟩
  obtain ⟨k', p1, p2⟩ := client_pending hc.offered hc.answered hc.hello hf hgr hne hpf hfin hb hs
  rw [← hsplit, feed_append] at p1
  obtain ⟨_, k1, e1, p1⟩ := Step.bind_ok.1 p1
  have hpm : ∀ w, w ∈ pre.flatten ∨ w ∈ g → NoAlert w := fun w hw => hall w (by
    have : w ∈ shRec :: init := by rw [← hsplit]; simpa using hw
    simp only [List.mem_cons, List.mem_append] at this ⊢
    tauto)
  have hr1 : k1.state ≠ .ready := by
    intro hr
    have := feed_tail env g k1 hr (fun w hw => hpm w (.inr hw))
    rw [this] at p1
    obtain rfl := (Prod.mk.inj p1).2
    exact p2 hr
  have hsplit' : shRec :: (init ++ [fin] ++ tail) = pre.flatten ++ (g ++ fin :: tail) := by
    rw [← List.append_assoc, hsplit]
    simp
  rw [hsplit', feed_append] at h1
  obtain ⟨_, k1', e1', h1⟩ := Step.bind_ok.1 h1
  rw [e1] at e1'
  obtain rfl := (Prod.mk.inj e1').2
  obtain ⟨s, g1, g2, g3, g4, g5, g6⟩ := connect_stop env hb hs (pre := pre) (g := g ++ fin :: tail) (later := later)
    (fun a ha => ⟨fun w hw => hpm w (.inl (List.mem_flatten.2 ⟨a, ha, hw⟩)), hpre a ha⟩)
    ⟨fun w hw => by
      rcases List.mem_append.1 hw with hw | hw
      · exact (hpm w (.inr hw)).whole
      · rcases List.mem_cons.1 hw with rfl | hw
        · exact (hall w (by simp)).whole
        · exact (htail w hw).whole, by simp, hg⟩ e1 hr1 h1 h3.state
  obtain ⟨cwire, q1, q2⟩ := h3.sent
  obtain ⟨p, p1, p2, p3, p4, p5⟩ := h3.prot
  rw [← hmsg] at q1 p3 p4
  exact ⟨s, _, p, cwire, g1, q1, g3.trans q2, g5, g6, by rw [g2]; exact p1, p2, p5, p3, p4, hx⟩

/-- The same when the reads may cut records and nothing else comes with the server's Finished. -/
theorem stops_pieces {env : ClientEnv} {rng : List Bytes} {n : Int} {x : Params} {ch sh shRec messages : Bytes} {auth init reads : List Bytes} {fin : Bytes}
    (hown : ∀ c, env.config.clientCert = some c → c.raw.length + 400 ≤ 2 ^ 24)
    (hc : ConformingServer env rng n x ch sh shRec messages auth (init ++ [fin])) (hfin : ¬ ∃ c, Tls13.IsRecord 20#8 c fin)
    (later : List Bytes) (hd : Tls13.Pieces 2048 [] (shRec :: (init ++ [fin])) reads) :
    ∃ s h p cwire, ClientConnection.connect env rng ⟨reads ++ later, [], []⟩ = (.ok s, h) ∧
      Tls13.Sent (aead x.c) (x.sess.key .client) (x.sess.iv .client) 0 (auth ++ [x.sess.finished .client (messages ++ auth.flatten)]) cwire ∧
      s.stream.written = Tls13.plainRecord 22#8 ch ++ cwire ∧
      s.stream.incoming = later ∧ s.stream.failures = [] ∧ s.protection = some p ∧ p.cipher = x.c ∧ p.isClient = true ∧
      wKey p = x.appKey messages .client ∧ rKey p = x.appKey messages .server ∧ x.Ok := by
  obtain ⟨S, cert, groups, hf, hgr, hne, hmsg, hpf⟩ := script_of hown hc
  obtain ⟨gr, k0, k, hb, hs, hx, hgl, _, _, h1, h3⟩ := client_feed (tail := []) hc.offered hc.answered hc.hello hf hgr hne hpf (by simp)
  have hall : ∀ w ∈ (shRec :: init) ++ [fin], NoAlert w := by
    intro w hw
    rw [List.cons_append] at hw
    rcases List.mem_cons.1 hw with rfl | hw
    · exact ⟨22#8, sh, by decide, hc.hello⟩
    · obtain ⟨t, c, ht, hr⟩ := flight_whole hx hpf (by rw [List.length_map]; omega) w hw
      exact ⟨t, c, by rcases ht with rfl | rfl <;> decide, hr⟩
  obtain ⟨k', p1, p2⟩ := client_pending hc.offered hc.answered hc.hello hf hgr hne hpf hfin hb hs
  rw [List.append_nil, ← List.cons_append, feed_append, Step.bind_of_ok p1] at h1
  have hi : Idle k0 := by
    have := hello_idle env (first n gr) ⟨rfl, rfl, rfl⟩
    rwa [hs] at this
  have o := reads_stop_pieces env (later := later) (i := []) h1 p2 h3.state reads [] (shRec :: init)
    (((reads ++ later).map List.length).sum + (reads ++ later).length + 2) (withReads (reads ++ later) k0) k0 hd hall (by rw [List.length_append]; omega)
    (withReads_alike hi) hi.1 p1
  rw [← run_reads env hs] at o
  obtain ⟨h', e1, ⟨s, rfl, hs'⟩, e3⟩ := o
  obtain ⟨cwire, q1, q2⟩ := h3.sent
  obtain ⟨p, p1, p2, p3, p4, p5⟩ := h3.prot
  rw [← hmsg] at q1 p3 p4
  refine ⟨s, some { k with stream := s }, p, cwire, ?_, q1, ?_, hs'.pending', hs'.calm', by rw [hs'.protection]; exact p1, p2, p5, p3, p4, hx⟩
  · rw [connect_eq env hb]
    unfold conclude doHandshakeWithError
    rw [e1]
  · have := hs'.output
    unfold out at this
    rw [show s.buffer = [] from e3, List.append_nil] at this
    exact this.trans q2

end ATLS.ClientProof
