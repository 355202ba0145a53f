import Verif.Proof.Outcome
/-
What `accept` leaves unread: everything after the read with the record that completes the handshake.
-/
namespace ATLS.ServerProof
open ATLS ATLS.Model ATLS.Spec ServerHandshake FlowProof

/-- How many records other than change_cipher_spec a state needs at least before the handshake is complete. -/
def need (env : ServerEnv) : ServerHsState → Nat
  | .clientHello => if env.config.clientCertCa.isSome then 4 else 2
  | .clientCertificate => 3
  | .clientCertificateVerify => 2
  | .clientFinished => 1
  | .finishWithError _ => 4
  | .ready => 0

def AtLeast (env : ServerEnv) (n : Nat) (h : ServerHandshake) : Prop := n ≤ need env h.state

namespace AtLeast
variable {env : ServerEnv} {n : Nat}

theorem mod {g : ServerHandshake → ServerHandshake} (h : ∀ h, (g h).state = h.state) : Step.Pres (AtLeast env n) (Step.modify g : M Unit) :=
  fun s hs => by unfold AtLeast; rw [show (Step.modify g s : Res TlsError Unit × _).2 = g s from rfl, h]; exact hs
theorem state {s : ServerHsState} (h : n ≤ need env s) : Step.Pres (AtLeast env n) (setState s) := fun _ _ => h
theorem tshash : Step.Pres (AtLeast env n) getTshash := fun _ h => h
theorem update (b : Bytes) : Step.Pres (AtLeast env n) (updateTshash b) := Step.Pres.bind tshash fun _ => mod fun _ => rfl

theorem certificate (r : Record) : Step.Pres (AtLeast env 2) (handleClientCertificate env r) := by
  unfold handleClientCertificate
  pres
  all_goals first
    | exact tshash
    | exact update _
    | exact state (by simp [need])
    | exact mod fun _ => rfl

theorem certificateVerify (r : Record) : Step.Pres (AtLeast env 1) (handleClientCertificateVerify r) := by
  unfold handleClientCertificateVerify
  pres
  all_goals first
    | exact tshash
    | exact update _
    | exact state (by simp [need])

end AtLeast

theorem finish_stays {r : Record} {h h' : ServerHandshake} {e : TlsError} (hs : h.state = .finishWithError e) (hw : handleClientFinish r h = (.ok (), h')) :
    h'.state = h.state := by
  unfold handleClientFinish at hw
  slift hw with ⟨hs', _, hw⟩
  rw [Step.bind_get] at hw
  by_cases hty : hs'.handshakeType ≠ .finished
  · rw [if_pos hty, hs] at hw
    simp only [] at hw
    unfold updateTshash at hw
    sbind hw with ⟨t, h1, e1, hw⟩
    have hw := Step.modify_ok.1 hw
    subst hw
    have e1 : getTshash h = (.ok t, h1) := e1
    unfold getTshash at e1
    have : h1 = h := by
      have := congrArg Prod.snd e1
      exact this.symm
    rw [this]
  · rw [if_neg hty] at hw
    sbind hw with ⟨_, h1, _, hw⟩
    sbind hw with ⟨_, h2, _, hw⟩
    slift hw with ⟨_, _, hw⟩
    split_ifs at hw
    · exact absurd hw Step.throw_ok
    · slift hw with ⟨_, _, hw⟩
      sbind hw with ⟨_, h3, _, hw⟩
      sbind hw with ⟨_, h4, _, hw⟩
      rw [hs] at hw
      exact absurd hw Step.throw_ok

theorem flight_state {env : ServerEnv} {t : TsHash} {h h' : ServerHandshake} (hw : sendFlight env t h = (.ok (), h')) :
    h'.state = if env.config.clientCertCa.isSome then .clientCertificate else .clientFinished := by
  unfold sendFlight at hw
  sbind hw with ⟨_, h1, _, hw⟩
  sbind hw with ⟨_, h2, _, hw⟩
  sbind hw with ⟨_, h3, _, hw⟩
  slift hw with ⟨_, _, hw⟩
  sbind hw with ⟨_, h4, _, hw⟩
  sbind hw with ⟨_, h5, _, hw⟩
  slift hw with ⟨_, _, hw⟩
  sbind hw with ⟨_, h6, _, hw⟩
  sbind hw with ⟨_, h7, e, hw⟩
  have e := Step.modify_ok.1 e
  have hw := Step.modify_ok.1 hw
  subst hw
  subst e
  rfl

theorem hello_state {env : ServerEnv} {r : Record} {h h' : ServerHandshake} (hw : handleClientHello env r h = (.ok (), h')) :
    h'.state = if env.config.clientCertCa.isSome then .clientCertificate else .clientFinished := by
  unfold handleClientHello at hw
  slift hw with ⟨hs, _, hw⟩
  by_cases hty : hs.handshakeType ≠ .clientHello
  · rw [if_pos hty] at hw; exact absurd hw Step.throw_ok
  rw [if_neg hty] at hw
  slift hw with ⟨ch, _, hw⟩
  rw [Step.bind_get] at hw
  slift hw with ⟨⟨sh, pk, rng⟩, _, hw⟩
  simp only [] at hw
  rw [Step.bind_modify] at hw
  slift hw with ⟨t, _, hw⟩
  slift hw with ⟨b, _, hw⟩
  sbind hw with ⟨_, h1, _, hw⟩
  sbind hw with ⟨_, h2, _, hw⟩
  slift hw with ⟨_, _, hw⟩
  slift hw with ⟨_, _, hw⟩
  slift hw with ⟨_, _, hw⟩
  slift hw with ⟨_, _, hw⟩
  sbind hw with ⟨_, h3, _, hw⟩
  sbind hw with ⟨_, h4, _, hw⟩
  exact flight_state hw

theorem encrypted_need {env : ServerEnv} {r : Record} {h h' : ServerHandshake} (hw : handleEncryptedRecord env r h = (.ok (), h')) :
    need env h.state ≤ need env h'.state + 1 := by
  unfold handleEncryptedRecord at hw
  sbind hw with ⟨a, h1, e1, hw⟩
  have hst : h1.state = h.state := by
    unfold decryptRecord at e1
    sbind e1 with ⟨p, h0, e0, e1⟩
    have e0 : h0 = h := (congrArg Prod.snd e0).symm
    have e1 := congrArg (fun x => x.2.state) e1
    simp only [] at e1
    rw [← e1, e0]
  obtain ⟨ty, content⟩ := a
  simp only [] at hw
  rw [Step.bind_get] at hw
  split at hw
  · split at hw
    · slift hw with ⟨_, _, hw⟩
      exact absurd hw Step.throw_ok
    · exact absurd hw Step.throw_ok
  rw [← hst]
  cases hs : h1.state with
  | clientHello => rw [hs] at hw; rw [(Step.pure_ok.1 hw).2, hs]; omega
  | ready => simp [need]
  | clientCertificate =>
    rw [hs] at hw
    have := AtLeast.certificate (env := env) (Record.new ty content) h1 (show 2 ≤ need env h1.state by rw [hs]; simp [need])
    simp only [] at hw
    rw [hw] at this
    have this : 2 ≤ need env h'.state := this
    show 3 ≤ need env h'.state + 1
    omega
  | clientCertificateVerify =>
    rw [hs] at hw
    have := AtLeast.certificateVerify (env := env) (Record.new ty content) h1 (show 1 ≤ need env h1.state by rw [hs]; simp [need])
    simp only [] at hw
    rw [hw] at this
    have this : 1 ≤ need env h'.state := this
    show 2 ≤ need env h'.state + 1
    omega
  | clientFinished => show 1 ≤ need env h'.state + 1; omega
  | finishWithError e =>
    rw [hs] at hw
    rw [finish_stays hs hw, hs]
    omega

theorem record_need {env : ServerEnv} {r : Record} {h h' : ServerHandshake} (hw : handleRecord env r h = (.ok (), h')) :
    need env h.state ≤ need env h'.state + 1 ∧ (r.contentType = .changeCipherSpec → need env h.state ≤ need env h'.state) := by
  unfold handleRecord at hw
  rw [Step.bind_get] at hw
  cases hc : r.contentType with
  | changeCipherSpec =>
    rw [hc] at hw
    simp only [] at hw
    by_cases hs : h.state = .clientHello
    · rw [if_pos hs] at hw; exact absurd hw Step.throw_ok
    · rw [if_neg hs] at hw
      rw [(Step.pure_ok.1 hw).2]
      exact ⟨by omega, fun _ => le_rfl⟩
  | alert =>
    rw [hc] at hw
    simp only [] at hw
    slift hw with ⟨_, _, hw⟩
    exact absurd hw Step.throw_ok
  | _ =>
    rw [hc] at hw
    simp only [] at hw
    refine ⟨?_, fun h => by cases h⟩
    cases hs : h.state with
    | clientHello =>
      rw [hs] at hw
      simp only [] at hw
      first
        | (rw [if_pos (by decide)] at hw; exact absurd hw Step.throw_ok)
        | (rw [if_neg (by decide)] at hw; rw [hello_state hw]; unfold need; split_ifs <;> simp)
    | ready => simp [need]
    | _ =>
      rw [hs] at hw
      rw [← hs]
      exact encrypted_need hw

/-- The records that are not change_cipher_spec. -/
def proper (ws : List Bytes) : List Bytes := ws.filter fun w => w.head? ≠ some 20#8

theorem fromRaw_type {w : Bytes} {n : Nat} {r : Record} (h : Record.fromRaw w = (.ok (n, r) : Res TlsError _)) (hc : w.head? = some 20#8) : r.contentType = .changeCipherSpec := by
  unfold Record.fromRaw at h
  split at h
  · cases h
  · cases w with
    | nil => cases hc
    | cons b bs =>
      obtain rfl : b = 20#8 := by simpa using hc
      have hty : RecordType.new 20#8 = (.ok .changeCipherSpec : Res TlsError _) := by decide
      simp only [idx, List.getElem?_cons_zero, Res.ok_bind, hty] at h
      obtain ⟨_, _, h⟩ := Res.bind_eq_ok.1 h
      obtain ⟨_, _, h⟩ := Res.bind_eq_ok.1 h
      obtain ⟨_, _, h⟩ := Res.bind_eq_ok.1 h
      obtain ⟨_, _, h⟩ := Res.bind_eq_ok.1 h
      split at h
      · cases h
      · obtain ⟨_, _, h⟩ := Res.bind_eq_ok.1 h
        obtain ⟨_, _, h⟩ := Res.bind_eq_ok.1 h
        have := Res.ok.inj h
        rw [← (Prod.mk.inj this).2]

/-- Handling records takes a state nearer to the end by at most the number of records that are not change_cipher_spec. -/
theorem feed_need (env : ServerEnv) : ∀ (ws : List Bytes) (h h' : ServerHandshake), feed env ws h = (.ok (), h') →
    need env h.state ≤ need env h'.state + (proper ws).length
  | [], h, h', hw => by
    rw [(Step.pure_ok.1 hw).2]
    omega
  | w :: ws, h, h', hw => by
    unfold feed at hw
    slift hw with ⟨⟨m, r⟩, hr, hw⟩
    sbind hw with ⟨_, h1, e1, hw⟩
    have g1 := record_need e1
    have g2 := feed_need env ws h1 h' hw
    by_cases hc : w.head? = some 20#8
    · have : proper (w :: ws) = proper ws := by simp [proper, hc]
      rw [this]
      have := g1.2 (fromRaw_type hr hc)
      omega
    · have : proper (w :: ws) = w :: proper ws := by simp [proper, hc]
      rw [this, List.length_cons]
      omega

/-- The loop stops after the read that completes the handshake; what comes after it may be anything. -/
theorem reads_left (env : ServerEnv) (more : List Bytes) : ∀ (groups : List (List Bytes)) (fuel : Nat) (i : List Bytes) (h k k1 : ServerHandshake),
    (∀ g ∈ groups, (∀ w ∈ g, Tls13.WholeRecord w) ∧ g ≠ [] ∧ g.flatten.length ≤ 4096) → groups.length < fuel →
    Alike i (groups.map List.flatten ++ more) k h → h.stream.buffer = [] → feed env groups.flatten k = (.ok (), k1) → k1.state = .ready →
    (∀ a g b, a ++ g :: b = groups → ∀ k', feed env a.flatten k = (.ok (), k') → k'.state ≠ .ready) →
    ∃ h', readLoop env fuel h = (.ok (), h') ∧ Alike i more k1 h' ∧ h'.stream.buffer = []
  | [], fuel, i, h, k, k1, _, hf, ha, hb, hk, hr, _ => by
    obtain ⟨n, rfl⟩ : ∃ n, fuel = n + 1 := ⟨fuel - 1, by omega⟩
    obtain ⟨s, rfl, hs⟩ := id ha
    obtain rfl : k1 = k := (Step.pure_ok.1 hk).2
    refine ⟨_, ?_, ha, hb⟩
    unfold readLoop
    rw [Step.bind_get, if_pos hr]
    rfl
  | g :: gs, fuel, i, h, k, k1, hg, hf, ha, hb, hk, hr, hp => by
    obtain ⟨n, rfl⟩ : ∃ n, fuel = n + 1 := ⟨fuel - 1, by omega⟩
    obtain ⟨s, hks, hs⟩ := id ha
    subst hks
    have hg0 := hg g (by simp)
    have hst : k.state ≠ .ready := hp [] g gs rfl k rfl
    rw [read_step env (g := g) (rest := gs.map List.flatten ++ more) n { k with stream := s } hg0.1 hg0.2.1 hg0.2.2 hs.pending' hst]
    have ha' : Alike i (gs.map List.flatten ++ more) k { k with stream := { s with stream := { s.stream with incoming := gs.map List.flatten ++ more } } } :=
      ⟨_, rfl, hs.protection, hs.output, hs.calm, hs.calm', hs.pending, rfl⟩
    obtain ⟨h1, h2⟩ := feed_rel env g _ _ ha'
    rw [List.flatten_cons, feed_append] at hk
    sbind hk with ⟨_, k2, e1, hk⟩
    rw [e1] at h1 h2
    rcases hk2 : feed env g { k with stream := { s with stream := { s.stream with incoming := gs.map List.flatten ++ more } } } with ⟨r', h1'⟩
    rw [hk2] at h1 h2
    simp only [] at h1 h2
    subst h1
    obtain ⟨h2', f1, f2, f3⟩ := alike_flush h2
    rw [Step.bind_of_ok hk2, Step.bind_of_ok f1]
    refine reads_left env more gs n i h2' k2 k1 (fun g' hg' => hg g' (by simp [hg'])) (by simpa using hf) f2 f3 hk hr ?_
    intro a g' b hab k' hk'
    refine hp (g :: a) g' b (by rw [List.cons_append, hab]) k' ?_
    rw [List.flatten_cons, feed_append, Step.bind_of_ok e1]
    exact hk'

/-- When records complete the handshake, the last of them is no change_cipher_spec and there are no more others than needed, `accept` leaves exactly the further
reads. -/
theorem accept_left (env : ServerEnv) (rng : List Bytes) {records reads : List Bytes} {last : Bytes} {k : ServerHandshake} (more : List Bytes)
    (hw : ∀ w ∈ records ++ [last], Tls13.WholeRecord w) (hd : Tls13.Delivers 4096 (records ++ [last]) reads) (hk : feed env (records ++ [last]) (base env rng) = (.ok (), k))
    (hr : k.state = .ready) (hc : (proper records).length < if env.config.clientCertCa.isSome then 4 else 2) :
    ∃ s, ServerConnection.accept env rng ⟨reads ++ more, [], []⟩ = (.ok s, { k with stream := s }) ∧ s.protection = k.stream.protection ∧
      s.stream.written = out k.stream ∧ s.buffer = [] ∧ s.stream.incoming = more ∧ s.stream.failures = [] := by
  obtain ⟨groups, hgr, rfl, hg⟩ := hd
  have hlt : groups.length < ((groups.map List.flatten ++ more).map List.length).sum + (groups.map List.flatten ++ more).length + 2 := by simp; omega
  have hnot : ∀ a g b, a ++ g :: b = groups → ∀ k', feed env a.flatten (base env rng) = (.ok (), k') → k'.state ≠ .ready := by
    intro a g b hab k' hk' hready
    have h1 := feed_need env _ _ _ hk'
    rw [hready] at h1
    have h2 : need env (base env rng).state = if env.config.clientCertCa.isSome then 4 else 2 := rfl
    have hgne : g ≠ [] := (hg g (by rw [← hab]; simp)).1
    have hpre : a.flatten <+: records := by
      rw [← hab, List.flatten_append, List.flatten_cons] at hgr
      have hne : g ++ b.flatten ≠ [] := by
        intro e
        exact hgne (List.append_eq_nil_iff.1 e).1
      obtain ⟨init, l, e⟩ : ∃ init l, g ++ b.flatten = init ++ [l] := ⟨_, _, (List.dropLast_append_getLast hne).symm⟩
      rw [e, ← List.append_assoc] at hgr
      have := (List.append_inj' hgr rfl).1
      exact ⟨init, this⟩
    have h3 : (proper a.flatten).length ≤ (proper records).length := by
      obtain ⟨t, rfl⟩ := hpre
      simp [proper]
    have h4 : need env ServerHsState.ready = 0 := rfl
    omega
  obtain ⟨h', e1, ⟨s, rfl, hs⟩, e3⟩ := reads_left env more groups _ [] (ServerHandshake.new env (TlsStream.new ⟨groups.map List.flatten ++ more, [], []⟩) rng) (base env rng) k
    (fun g hgm => ⟨fun w hwm => hw w (by rw [← hgr]; exact List.mem_flatten.2 ⟨g, hgm, hwm⟩), hg g hgm⟩) hlt ⟨_, rfl, rfl, rfl, rfl, rfl, rfl, rfl⟩ rfl (by rw [hgr]; exact hk) hr hnot
  have e1 : doHandshake env (ServerHandshake.new env (TlsStream.new ⟨groups.map List.flatten ++ more, [], []⟩) rng) = (.ok (), { k with stream := s }) := e1
  refine ⟨s, ?_, hs.protection, ?_, e3, hs.pending', hs.calm'⟩
  · unfold ServerConnection.accept doHandshakeWithError
    rw [e1]
  · have := hs.output
    unfold out at this
    rw [show s.buffer = [] from e3, List.append_nil] at this
    exact this

end ATLS.ServerProof
