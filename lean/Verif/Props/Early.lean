import Verif.Proof.Early
import Verif.Props.PairExample
/-
C47: application data right after the client's Finished.
-/
namespace ATLS
open ATLS.Model ATLS.Spec FlowProof RecProof

/-- C47 for the arrival patterns `arrive handshake data incoming`: when a conforming client sends its handshake records, of which the last is the one
with its Finished, and then application data, and these records arrive as the reads `incoming`, then `accept` succeeds and the following `tls_read`s
return the data. -/
def C47_for (arrive : List Bytes → List Bytes → List Bytes → Prop) : Prop :=
  ∀ (env : ServerEnv) (reads : List Bytes) (r : Exchange) (rng : Rng) (context : Option Bytes) (auth : List Bytes) (rest : Bytes) (init : List Bytes) (fin : Bytes)
    (payloads data incoming : List Bytes) (bufLen : Nat),
    env.config.prngType = .urandom → env.config.cert.raw.length + 200 ≤ 2 ^ 24 → Conforming env reads r rng context auth rest (init ++ [fin]) →
    (¬ ∃ c, Tls13.IsRecord 20#8 c fin) →
    Tls13.AppData (aead r.x.c) (r.x.appKey r.transcript .client).key (r.x.appKey r.transcript .client).iv 0 payloads data → payloads.length < 2 ^ 63 →
    (∀ m ∈ payloads, m.length ≤ bufLen) → (∀ w ∈ data, w.length ≤ 4096) → arrive (r.chRec :: (init ++ [fin])) data incoming →
    ∃ s h, ServerConnection.accept env reads ⟨incoming, [], []⟩ = (.ok s, h) ∧ readPayloads bufLen s payloads.length = .ok payloads

/-- C47 in full: the records, handshake and data, are grouped into reads in any way. -/
def C47_statement : Prop := C47_for fun handshake data incoming => Tls13.Delivers 4096 (handshake ++ data) incoming

/-- The groups of a delivery of records of which the last is `fin`. -/
theorem EarlyProof.last_group {a : List Bytes} {fin : Bytes} {groups : List (List Bytes)} (h : groups.flatten = a ++ [fin]) (hne : ∀ g ∈ groups, g ≠ []) :
    ∃ pre g, groups = pre ++ [g ++ [fin]] ∧ pre.flatten ++ g = a := by
  rcases List.eq_nil_or_concat groups with rfl | ⟨pre, l, rfl⟩
  · simp at h
  rw [List.concat_eq_append] at *
  rcases List.eq_nil_or_concat l with rfl | ⟨g, v, rfl⟩
  · exact absurd rfl (hne [] (by simp))
  rw [List.concat_eq_append] at *
  have h' : (pre.flatten ++ g) ++ [v] = a ++ [fin] := by simpa using h
  obtain ⟨h1, h2⟩ := List.append_inj' h' rfl
  exact ⟨pre, g, by rw [List.cons.inj h2 |>.1], h1⟩

/-- C47 when no data arrives in the read that contains the client's Finished: the handshake records arrive grouped in any way, and then the data, one
record per read. Missing: data in the read of the Finished (it is lost, `C47_lost`) and several data records in one read (C23). -/
theorem C47_data_after_finished_partial : C47_for fun handshake data incoming => ∃ a, Tls13.Delivers 4096 handshake a ∧ incoming = a ++ data := by
  intro env reads r rng context auth rest init fin payloads data incoming bufLen hu hcl hc hfin hdata hn hb hw harr
  obtain ⟨_, ⟨groups, hfl, rfl, hgr⟩, rfl⟩ := harr
  obtain ⟨pre, g, rfl, hsplit⟩ := EarlyProof.last_group (a := r.chRec :: init) (by rw [hfl]; rfl) (fun g hg => (hgr g hg).1)
  obtain ⟨s, h, p, _, h1, _, _, h2, _, h4, h5, _, _, h8, hx⟩ := ServerProof.stops hu hcl hc hfin (tail := []) data hsplit (fun a ha => hgr a (by simp [ha]))
    (hgr (g ++ [fin]) (by simp)).2 (by simp)
  refine ⟨s, h, ?_, ?_⟩
  · rw [← h1]
    simp
  · have hseq : (rKey p).sequenceNumber.toNat = 0 := by rw [h8]; rfl
    refine EarlyProof.read_data (cs := r.x.cs) bufLen payloads data [] s p h4 (by rw [h5]; exact hx.cipher) (by rw [h8]; exact EarlyProof.appKey_sizes _ _ _)
      (by rw [hseq]; omega) ?_ hb hw (by rw [h2]; simp)
    rw [hseq, h8, h5]
    exact hdata

/-- C47, what happens instead: data in the read of the client's Finished is dropped. The handshake succeeds, and the following `tls_read` goes to the
socket for what comes later; if nothing comes it fails. This holds for every conforming client and every grouping of the records before. -/
theorem C47_lost (env : ServerEnv) (reads : List Bytes) (r : Exchange) (rng : Rng) (context : Option Bytes) (auth : List Bytes) (rest : Bytes) (init : List Bytes)
    (fin : Bytes) (payloads data : List Bytes) (pre : List (List Bytes)) (g later : List Bytes)
    (hu : env.config.prngType = .urandom) (hcl : env.config.cert.raw.length + 200 ≤ 2 ^ 24) (hc : Conforming env reads r rng context auth rest (init ++ [fin]))
    (hfin : ¬ ∃ c, Tls13.IsRecord 20#8 c fin)
    (hdata : Tls13.AppData (aead r.x.c) (r.x.appKey r.transcript .client).key (r.x.appKey r.transcript .client).iv 0 payloads data)
    (hsplit : pre.flatten ++ g = r.chRec :: init) (hpre : ∀ g ∈ pre, g ≠ [] ∧ g.flatten.length ≤ 4096) (hg : (g ++ fin :: data).flatten.length ≤ 4096) :
    ∃ s h, ServerConnection.accept env reads ⟨pre.map List.flatten ++ (g ++ fin :: data).flatten :: later, [], []⟩ = (.ok s, h) ∧ s.stream.incoming = later ∧
      (later = [] → ∀ bufLen, (s.tlsRead bufLen).1 = .err .brokenPipe) := by
  obtain ⟨v1, v2, hch, he⟩ := hc.hello
  have hl : r.ch.length ≤ 4096 := by
    have hin : r.chRec.length ≤ 4096 := by
      cases pre with
      | nil =>
        rw [List.flatten_nil, List.nil_append] at hsplit
        rw [hsplit] at hg
        simp at hg
        omega
      | cons a l =>
        obtain ⟨h1, h2⟩ := hpre a List.mem_cons_self
        cases a with
        | nil => exact absurd rfl h1
        | cons v vs =>
          have : v = r.chRec := by simpa using (List.cons.inj hsplit).1
          rw [this] at h2
          simp at h2
          omega
    rw [he] at hin
    simp only [List.length_append] at hin
    omega
  obtain ⟨_, _, hx, _⟩ := ServerProof.server_feed (tail := []) hu hcl hc.hello hl hc.answered hc.drawn hc.flight hc.proof hc.records (by simp)
  obtain ⟨s, h, p, _, h1, _, _, h2, _⟩ := ServerProof.stops hu hcl hc hfin later hsplit hpre hg (EarlyProof.data_whole hx.cipher (EarlyProof.appKey_sizes _ _ _) hdata)
  refine ⟨s, h, h1, h2, ?_⟩
  intro hlater bufLen
  unfold TlsStream.tlsRead TlsStream.tcpRead
  rw [h2, hlater]

theorem EarlyProof.flatten_single (l : List Bytes) : (l.map fun v => [v]).flatten = l := by
  induction l with
  | nil => rfl
  | cons a l ih => rw [List.map_cons, List.flatten_cons, ih]; rfl

/-- The client of the library with the example server meets the conditions of `C47_for` and of `C47_lost`, with a payload of five bytes. -/
theorem C47_example : ∃ (env : ServerEnv) (reads : List Bytes) (r : Exchange) (rng : Rng) (context : Option Bytes) (auth init : List Bytes) (fin w : Bytes),
    env.config.prngType = .urandom ∧ env.config.cert.raw.length + 200 ≤ 2 ^ 24 ∧ Conforming env reads r rng context auth [] (init ++ [fin]) ∧
    (¬ ∃ c, Tls13.IsRecord 20#8 c fin) ∧ (∀ w ∈ r.chRec :: init, w.length ≤ 4096) ∧ fin.length + w.length ≤ 4096 ∧
    Tls13.AppData (aead r.x.c) (r.x.appKey r.transcript .client).key (r.x.appKey r.transcript .client).iv 0 [ascii "hello"] [w] := by
  obtain ⟨⟨kc, ks, q, r, rng, auth, ws, cws, R⟩, _⟩ := PairProof.example_runs
  have hcert : (Spec.X509.certificate ownTbs ownR ownS).length + 200 ≤ 2 ^ 24 := by decide +kernel
  obtain ⟨data, d1, d2⟩ := EarlyProof.data_exists R.ok.cipher (EarlyProof.appKey_sizes r.x r.transcript .client) 0 [ascii "hello"] (by decide +kernel)
  obtain ⟨w, rest, rfl, _, d3⟩ := id d1
  rw [Tls13.AppData] at d3
  subst d3
  have hwl : w.length = 27 := by
    cases d2 with
    | cons h _ => rw [h]; decide +kernel
  rcases List.eq_nil_or_concat cws with hnil | ⟨init, fin, hcws⟩
  · have := R.count
    rw [hnil] at this
    simp at this
  rw [List.concat_eq_append] at hcws
  subst hcws
  have hrec := R.client.records
  have hcnt := R.count
  refine ⟨_, _, r, rng, _, auth, init, fin, w, rfl, hcert, R.client, (PairProof.no_ccs hrec).2 (by rw [hcnt]; simp) fin (by simp), ?_, ?_, d1⟩
  · intro v hv
    rcases List.mem_cons.1 hv with rfl | hv
    · exact R.fromClient _ List.mem_cons_self
    · exact R.fromClient v (List.mem_cons_of_mem _ (List.mem_append_left _ hv))
  · have := R.short fin (by simp)
    omega

theorem C47_false : ¬ C47_statement := by
  intro hst
  obtain ⟨env, reads, r, rng, context, auth, init, fin, w, h1, h2, h3, h4, h5, h6, h7⟩ := C47_example
  have hsum : (([] : List Bytes) ++ fin :: [w]).flatten.length ≤ 4096 := by simpa using h6
  obtain ⟨s, h, g1, _, g3⟩ := C47_lost env reads r rng context auth [] init fin _ [w] ((r.chRec :: init).map fun v => [v]) [] [] h1 h2 h3 h4 h7 (by simp [EarlyProof.flatten_single])
    (by
      intro g hg
      obtain ⟨v, hv, rfl⟩ := List.mem_map.1 hg
      exact ⟨by simp, by simpa using h5 v hv⟩) hsum
  obtain ⟨s', h', e1, e2⟩ := hst env reads r rng context auth [] init fin _ [w] _ 100 h1 h2 h3 h4 h7 (by decide) (by decide +kernel) (by
      intro v hv
      rw [List.mem_singleton.1 hv]
      omega) ⟨(r.chRec :: init).map (fun v => [v]) ++ [[] ++ fin :: [w]], by simp [EarlyProof.flatten_single], rfl, by
      intro g hg
      rcases List.mem_append.1 hg with hg | hg
      · obtain ⟨v, hv, rfl⟩ := List.mem_map.1 hg
        exact ⟨by simp, by simpa using h5 v hv⟩
      · rw [List.mem_singleton.1 hg]
        exact ⟨by simp, hsum⟩⟩
  rw [List.map_append, List.map_singleton, g1] at e1
  obtain ⟨e1, _⟩ := Prod.mk.inj e1
  obtain rfl := Res.ok.inj e1
  have := g3 rfl 100
  rw [List.length_singleton, readPayloads] at e2
  revert this e2
  rcases s.tlsRead 100 with ⟨_ | _ | _, _⟩ <;> simp

end ATLS
