import Verif.Props.PairExample
/-
C46: the conditions of the theorems about reads that cut records are met by the library's own server.
-/
namespace ATLS
open ATLS.Model ATLS.Spec PairProof FlowProof

/-- What a client makes of the ServerHello record `hello`, the change_cipher_spec record `ccs` and the records `ws`, depending on the reads. The
handshake completes when each record is a read, when the ServerHello record arrives in two pieces, and when it arrives in one read with the
beginning of the change_cipher_spec record. The client panics when only the last byte of the ServerHello record is late, and handles the ServerHello
twice when the rest of it arrives together with the first byte of the change_cipher_spec record. -/
def Cuts (env : ClientEnv) (rng : List Bytes) (hello ccs : Bytes) (ws : List Bytes) : Prop :=
  (∀ r ∈ hello :: ccs :: ws, Tls13.WholeRecord r) ∧ (∀ r ∈ hello :: ccs :: ws, ¬ ∃ c, Tls13.IsRecord 21#8 c r) ∧ 6 < hello.length ∧
  (∃ s h, ClientConnection.connect env rng ⟨hello :: ccs :: ws, [], []⟩ = (.ok s, h)) ∧
  (∃ s h, ClientConnection.connect env rng ⟨hello.take 4 :: hello.drop 4 :: ccs :: ws, [], []⟩ = (.ok s, h)) ∧
  (∃ s h, ClientConnection.connect env rng ⟨(hello ++ ccs.take 1) :: ccs.drop 1 :: ws, [], []⟩ = (.ok s, h)) ∧
  (∀ more, (ClientConnection.connect env rng ⟨hello.take (hello.length - 1) :: more, [], []⟩).1 = .panic) ∧
  SameResult (ClientConnection.connect env rng ⟨hello.take 4 :: (hello.drop 4 ++ ccs.take 1) :: ccs.drop 1 :: ws, [], []⟩).1
    (ClientConnection.connect env rng ⟨hello :: hello :: ccs :: ws, [], []⟩).1

theorem cuts_of {env : ClientEnv} {rng : List Bytes} {n : Int} {x : Params} {ch sh shRec messages : Bytes} {auth ws : List Bytes} {ccs : Bytes}
    (hown : ∀ c, env.config.clientCert = some c → c.raw.length + 400 ≤ 2 ^ 24) (hc : ConformingServer env rng n x ch sh shRec messages auth (ccs :: ws))
    (hccs : ccs.length = 6) (h6 : 6 < shRec.length) (hl : shRec.length ≤ 2040) (hws : ∀ w ∈ ws, w.length ≤ 2048) : Cuts env rng shRec ccs ws := by
  obtain ⟨S, cert, groups, hf, hgr, hne, hmsg, hpf⟩ := ClientProof.script_of hown hc
  obtain ⟨gr, k0, k, hb, hs, hx, hgl, _, _, h1, h3⟩ := ClientProof.client_feed (tail := []) hc.offered hc.answered hc.hello hf hgr hne hpf (by simp)
  have hall : ∀ w ∈ shRec :: ccs :: ws, NoAlert w := by
    intro w hw
    rcases List.mem_cons.1 hw with rfl | hw
    · exact ⟨22#8, sh, by decide, hc.hello⟩
    · obtain ⟨t, c, ht, hr⟩ := flight_whole hx hpf (by rw [List.length_map]; omega) w hw
      exact ⟨t, c, by rcases ht with rfl | rfl <;> decide, hr⟩
  have hrest : Tls13.Pieces 2048 [] ws ws := (Tls13.delivers_single hws).pieces
  have hone : Tls13.Pieces 2048 [] (shRec :: ccs :: ws) (shRec :: ccs :: ws) := (Tls13.delivers_single fun w hw => by
    simp only [List.mem_cons] at hw
    rcases hw with rfl | rfl | hw
    · omega
    · omega
    · exact hws w hw).pieces
  have ok : ∀ reads, Tls13.Pieces 2048 [] (shRec :: ccs :: ws) reads → ∃ s h, ClientConnection.connect env rng ⟨reads, [], []⟩ = (.ok s, h) := by
    intro reads hr
    obtain ⟨s, h, _, _, g, _⟩ := C76_client_completes env rng n x ch sh shRec messages auth (ccs :: ws) [] reads hown hc (by simp) (by rw [List.append_nil]; exact hr)
    exact ⟨s, h, g⟩
  have l4 : (shRec.take 4).length = 4 := by rw [List.length_take]; omega
  have d4 : (shRec.drop 4).length = shRec.length - 4 := List.length_drop
  have l1 : (ccs.take 1).length = 1 := by rw [List.length_take]; omega
  have d1 : (ccs.drop 1).length = 5 := by rw [List.length_drop]; omega
  have ne {l : Bytes} (h : 0 < l.length) : l ≠ [] := List.length_pos_iff.1 h
  have b1 : Tls13.Begun shRec (shRec.take 4) := ⟨ne (by omega), _, (List.take_append_drop 4 shRec).symm, ne (by omega), .inl (by omega)⟩
  have b2 : Tls13.Begun ccs (ccs.take 1) := ⟨ne (by omega), _, (List.take_append_drop 1 ccs).symm, ne (by omega), .inl (by omega)⟩
  have hone2 : Tls13.Pieces 2048 [] (ccs :: ws) (ccs :: ws) := by
    simpa using Tls13.Pieces.whole (cap := 2048) (g := [ccs]) (by simp) (by simp; omega) hrest
  obtain ⟨s, h, hok⟩ := ok _ hone
  refine ⟨fun r hr => (hall r hr).whole, fun r hr => (hall r hr).not_alert, h6, ⟨s, h, hok⟩, ok _ ?_, ok _ ?_, ?_, ?_⟩
  · refine .begin (g := []) b1 (by simp) ?_
    have := Tls13.Pieces.last (cap := 2048) (held := shRec.take 4) (piece := shRec.drop 4) (g := []) (ne (by omega)) (ne (by omega)) (by simp; omega) hone2
    simpa using this
  · have := Tls13.Pieces.last (cap := 2048) (held := ccs.take 1) (piece := ccs.drop 1) (g := []) (ne (by omega)) (ne (by omega)) (by simp; omega) hrest
    have h2 := Tls13.Pieces.begin (g := [shRec]) (w := ccs) (part := ccs.take 1) (records := ws) (reads := ccs.drop 1 :: ws) (cap := 2048) b2 (by simp; omega) (by
      rw [List.take_append_drop] at this
      simpa only [List.flatten_nil, List.append_nil, List.cons_append, List.nil_append] using this)
    simpa only [List.flatten_cons, List.flatten_nil, List.append_nil, List.cons_append, List.nil_append] using h2
  · intro more
    obtain ⟨h0, e0, _⟩ := C76_client_hello_first env rng n ch hc.offered
    refine C46_client_cut env rng [] (ccs :: ws) _ [] more shRec _ (shRec.drop (shRec.length - 1)) s h (fun r hr => (hall r hr).whole) (fun r hr => (hall r hr).not_alert) hone hok .done
      (fun s h he => by rw [e0] at he; cases (Prod.mk.inj he).1) (List.take_append_drop _ _).symm (by rw [List.length_take]; omega) (ne (by rw [List.length_drop]; omega))
      (by rw [List.length_drop]; omega) (by rw [List.length_take]; omega)
  · refine C46_client_replayed env rng shRec ccs (shRec.take 4) (shRec.drop 4) (ccs.take 1) (ccs.drop 1) [] [] ws ws _ .done b1 (List.take_append_drop _ _).symm b2
      (List.take_append_drop _ _).symm (by omega) (by rw [List.length_append]; omega) (by omega) hrest ?_ (by simpa using Tls13.Pieces.whole (cap := 2048) (g := [shRec]) (by simp) (by simp; omega) hone) ?_
    · intro r hr
      rcases List.mem_cons.1 hr with rfl | hr
      · exact (hall _ (by simp)).whole
      · exact (hall r hr).whole
    · intro a r b hab hal
      refine absurd hal (hall r ?_).not_alert
      have : r ∈ shRec :: shRec :: ccs :: ws := by
        have hm : r ∈ a ++ r :: b := by simp
        rw [← hab] at hm
        exact hm
      rcases List.mem_cons.1 this with rfl | hr
      · simp
      · exact hr

/-- The example client and the library's server are such a client and server. -/
theorem C46_client_example : ∃ env rng hello ccs ws, Cuts env rng hello ccs ws := by
  obtain ⟨⟨kc, ks, q, r, rng, auth, ws, cws, R⟩, _⟩ := example_runs
  have size : (Spec.X509.certificate ownTbs ownR ownS).length + 400 ≤ 2 ^ 24 := by decide +kernel
  have size0 : (Spec.X509.certificate ownTbs ownR ownS).length ≤ 1800 := by decide +kernel
  have hb := R.hello
  have hl : (Tls13.plainRecord 22#8 r.sh).length = r.sh.length + 5 := by simp [Tls13.plainRecord, beBytes_length]; omega
  exact ⟨_, _, _, _, _, cuts_of (fun c hc => by rw [← Option.some.inj hc]; exact size) R.server (by rw [R.ccs]; rfl) (by omega) (by omega) fun w hw => R.fromServer size0 w (by simp [hw])⟩

end ATLS
