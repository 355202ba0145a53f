import Verif.Props.Agreement
import Verif.Props.Session
import Verif.Props.Examples
/-
Completed handshakes of the two ends of the library with each other in terms of the wire: a concrete case of `Accepted` and `ClientCompleted`, for C88.
-/
namespace ATLS
open ATLS.Model ATLS.Spec FlowProof RecProof PairProof

namespace AgreeProof

/-- A flight of protected records carries its contents, which are shorter than the records. -/
theorem flight_carried {x : Params} (hx : x.Ok) {side : Tls13.Side} {seq : Nat} {contents records : List Bytes}
    (h : Tls13.ProtectedFlight (aead x.c) (x.sess.key side) (x.sess.iv side) seq contents records) (hn : seq + contents.length < 2 ^ 63) :
    Tls13.Carried (aead x.c) (x.sess.key side) (x.sess.iv side) seq contents records.flatten ∧ contents.flatten.length ≤ records.flatten.length := by
  induction h with
  | nil seq => exact ⟨.nil _, by simp⟩
  | ccs seq contents c w ws h1 _ ih =>
    obtain ⟨i1, i2⟩ := ih hn
    rw [List.flatten_cons]
    exact ⟨.ccs _ _ c w _ h1 i1, by rw [List.length_append]; omega⟩
  | cons seq c contents w ws h1 _ ih =>
    rw [List.length_cons] at hn
    obtain ⟨i1, i2⟩ := ih (by omega)
    obtain ⟨⟨b, v1, v2, hb, hw⟩, padding, hl, _⟩ := protected_isRecord hx (by omega) h1
    obtain ⟨ct, tag, n, hlt, rfl, he⟩ := h1
    obtain ⟨ct', tag', g1, g2, g3, _⟩ := C15_aead_round_trip x.cs x.c hx.cipher (x.hsKey side seq).key (Tls13.nonce (x.hsKey side seq).iv seq) (c ++ [22#8] ++ zeros n)
      (Tls13.protectedHeader (c.length + 1 + n)) (suiteKeys (hsKey_sizes x side seq) _) (by simp [Tls13.protectedHeader, beBytes_length]; omega)
    have g1' : x.c.encrypt (x.sess.key side) (Tls13.nonce (x.sess.iv side) seq) (c ++ [22#8] ++ zeros n) (Tls13.protectedHeader (c.length + 1 + n)) = .ok (ct', tag') := g1
    have he' := he
    unfold aead at he'
    rw [g1'] at he'
    obtain ⟨rfl, rfl⟩ := Prod.mk.inj (Option.some.inj he')
    have hcl : (ct' ++ tag').length = c.length + 1 + n + 16 := by
      rw [List.length_append, g2, g3]
      simp
      omega
    rw [List.flatten_cons, List.flatten_cons]
    refine ⟨.cons _ _ _ _ _ ⟨_, ct', tag', n, by simp [Tls13.protectedHeader, beBytes_length], g3, rfl, by omega, ?_, he⟩ ⟨23#8, b, by decide, v1, v2, hb, hw⟩ i1, ?_⟩
    · rw [hcl]
      simp [Tls13.protectedHeader]
    · rw [List.length_append, List.length_append, hl]
      omega

theorem sum_le {l : List Bytes} {n : Nat} (h : ∀ w ∈ l, w.length ≤ n) : l.flatten.length ≤ l.length * n := by
  induction l with
  | nil => simp
  | cons a l ih =>
    have h1 := h a (by simp)
    have h2 := ih fun w hw => h w (by simp [hw])
    rw [List.flatten_cons, List.length_append, List.length_cons, Nat.add_mul]
    omega

variable {ce : ClientEnv} {se : ServerEnv} {crng srng : List Bytes} {q : Draws} {r : Exchange} {rng : Rng} {auth ws cws : List Bytes}

/-- The messages of the run are short. -/
theorem run_sizes (R : Runs ce se crng srng q r rng auth ws cws) (hsz : se.config.cert.raw.length ≤ 1800) (hl : auth.length ≤ 2) :
    r.ch.length ≤ 4096 ∧ r.transcript.length ≤ 20000 ∧ auth.flatten.length ≤ 20000 := by
  have hch : r.ch.length ≤ 4096 := by
    have := R.fromClient r.chRec (by simp)
    rw [R.rec_] at this
    simp only [Tls13.plainRecord, List.length_append] at this
    omega
  have hsh : r.sh.length ≤ 2048 := by
    have := R.fromServer hsz (Tls13.plainRecord 22#8 r.sh) (by simp)
    simp only [Tls13.plainRecord, List.length_append] at this
    omega
  have hhl : r.x.hellos = r.ch ++ r.sh := by
    obtain ⟨_, _, _, _, _, _, _, _, _, _, _, _, _, _, _, _, _, _, _, e⟩ := R.client.answered
    exact e
  obtain ⟨ee, requests, cm, cv, cert, contents, h1, h2, h3, h4, ⟨gs, c1, c2, c3⟩, h6, _⟩ := R.server.flight
  have hcf : contents.flatten = (serverMessages r.x ee requests cm cv).flatten := by
    rw [← c1, c2, List.flatten_flatten]
  have hcn := (no_ccs h6).1
  have hcnt := R.serverCount
  obtain ⟨_, hcl⟩ := flight_carried R.ok h6 (by rw [List.length_cons] at hcn; omega)
  have hws := sum_le (l := r.ccs :: ws) (n := 2048) fun w hw => R.fromServer hsz w (List.mem_cons_of_mem _ hw)
  rw [List.length_cons] at hws
  have hcc := no_ccs R.client.records
  obtain ⟨_, hal⟩ := flight_carried R.ok R.client.records (by rw [List.length_append, List.length_singleton]; omega)
  have hcws := sum_le (l := cws) (n := 4096) fun w hw => R.fromClient w (List.mem_cons_of_mem _ hw)
  rw [R.count] at hcws
  refine ⟨hch, ?_, ?_⟩
  · rw [h3, List.length_append, ← hcf, hhl, List.length_append]
    omega
  · rw [List.flatten_append, List.length_append] at hal
    have : (auth.length + 1) * 4096 ≤ 3 * 4096 := Nat.mul_le_mul_right _ (by omega)
    omega

theorem auth_le {env : ServerEnv} {x : Params} {context : Option Bytes} {m : Bytes} {auth : List Bytes} (h : ClientAuth env x context m auth) : auth.length ≤ 2 := by
  unfold ClientAuth at h
  split at h
  · rw [h]; simp
  · obtain ⟨m1, m2, _, rfl, _⟩ := h
    simp

/-- The server of the run completes the handshake and leaves later reads alone. -/
theorem run_accepted_more (R : Runs ce se crng srng q r rng auth ws cws) (hu : se.config.prngType = .urandom) (hcl : se.config.cert.raw.length ≤ 1800) (more : List Bytes) :
    ∃ s h, ServerConnection.accept se srng ⟨(r.chRec :: cws) ++ more, [], []⟩ = (.ok s, h) ∧
      Accepted se srng ⟨(r.chRec :: cws) ++ more, [], []⟩ s { r with swire := ws.flatten } (q.contextOf se) auth (r.x.sess.finished .client (r.transcript ++ auth.flatten)) [] ∧
      s.stream.incoming = more ∧ s.stream.failures = [] := by
  have hauth := auth_le R.client.proof
  obtain ⟨z1, z2, z3⟩ := run_sizes R hcl hauth
  rcases List.eq_nil_or_concat cws with hnil | ⟨init, fin, hcws⟩
  · have := R.count
    rw [hnil] at this
    simp at this
  rw [List.concat_eq_append] at hcws
  have hrec := R.client.records
  have hin := R.fromClient
  have hcnt := R.count
  have hcl2 := R.client
  subst hcws
  obtain ⟨s, h, p, swire, g1, g2, g3, g4, g5, g6, g7, g8, g9, g10, hx⟩ := ServerProof.stops hu (by omega) R.client ((no_ccs hrec).2 (by rw [hcnt]; simp) fin (by simp))
    (pre := (r.chRec :: init).map fun v => [v]) (g := []) (tail := []) more (by rw [EarlyProof.flatten_single, List.append_nil]) (by
      intro g hg
      obtain ⟨v, hv, rfl⟩ := List.mem_map.1 hg
      exact ⟨by simp, by simpa using hin v (by rcases List.mem_cons.1 hv with rfl | hv <;> simp [*])⟩) (by simpa using hin fin (by simp)) (by simp)
  have hreads : ((r.chRec :: init).map fun v => [v]).map List.flatten ++ ([] ++ fin :: []).flatten :: more = (r.chRec :: (init ++ [fin])) ++ more := by
    simp [Function.comp_def]
  rw [hreads] at g1
  obtain ⟨_, _, _, _, _, hA⟩ := C42_server_accepts se srng _ s h (by omega) g1
  refine ⟨s, h, g1, ?_, g4, g5⟩
  have hsw := sent_unique g2 R.sentServer
  refine ⟨⟨r.chRec ++ (init ++ [fin]).flatten, by rw [g4]; simp, (init ++ [fin]).flatten, rfl, ?_⟩, hcl2.hello, .nil, ⟨?_, ?_, z1⟩, ⟨rng, hcl2.answered⟩, hcl2.proof,
    ⟨[], by rw [List.append_nil]; rfl⟩, ⟨?_, hA.sent.2⟩, R.sentServer, hcl2.flight, ⟨p, g6, g7, g9, g10⟩⟩
  · have := (flight_carried R.ok hrec (by rw [List.length_append, List.length_singleton]; omega)).1
    rw [List.append_nil] at this
    exact this
  · show r.transcript.length < _
    omega
  · omega
  · rw [g3, hsw]
    simp

/-- The server of the run completes the handshake. -/
theorem run_accepted (R : Runs ce se crng srng q r rng auth ws cws) (hu : se.config.prngType = .urandom) (hcl : se.config.cert.raw.length ≤ 1800) :
    ∃ s h, ServerConnection.accept se srng ⟨r.chRec :: cws, [], []⟩ = (.ok s, h) ∧
      Accepted se srng ⟨r.chRec :: cws, [], []⟩ s { r with swire := ws.flatten } (q.contextOf se) auth (r.x.sess.finished .client (r.transcript ++ auth.flatten)) [] := by
  obtain ⟨s, h, h1, h2, _⟩ := run_accepted_more R hu hcl []
  rw [List.append_nil] at h1 h2
  exact ⟨s, h, h1, h2⟩

theorem taken_all {read : Bytes} (l : List Bytes) (h1 : ∀ w ∈ l, ∃ t c, Tls13.IsRecord t c w) (h2 : ∀ w ∈ l, w <:+: read) : TakenFrom read l.flatten := by
  induction l using List.reverseRecOn with
  | nil => exact .nil
  | append_singleton l w ih =>
    obtain ⟨t, c, h⟩ := h1 w (by simp)
    rw [List.flatten_append, List.flatten_singleton]
    exact .snoc t c w _ (ih (fun v hv => h1 v (by simp [hv])) (fun v hv => h2 v (by simp [hv]))) h (h2 w (by simp))

theorem infix_flatten {l : List Bytes} {w : Bytes} (h : w ∈ l) : w <:+: l.flatten := by
  obtain ⟨a, b, rfl⟩ := List.append_of_mem h
  exact ⟨a.flatten, b.flatten, by simp⟩

/-- The client of the run completes the handshake. -/
theorem run_completed (R : Runs ce se crng srng q r rng auth ws cws) (hsz : se.config.cert.raw.length ≤ 1800) (hown : ∀ c, ce.config.clientCert = some c → c.raw.length + 400 ≤ 2 ^ 24)
    (hname : ∀ n, ce.config.serverName = some n → n.length < 2 ^ 24) :
    ∃ s h r', ClientConnection.connect ce crng ⟨Tls13.plainRecord 22#8 r.sh :: r.ccs :: ws, [], []⟩ = (.ok s, h) ∧
      ClientCompleted ce crng ⟨Tls13.plainRecord 22#8 r.sh :: r.ccs :: ws, [], []⟩ s r' ∧ r'.x = r.x ∧ r'.ch = r.ch ∧ r'.sh = r.sh ∧ r'.auth = auth ∧
      r'.transcript = r.transcript := by
  obtain ⟨init, fin, rfl, hno⟩ := R.serverLast
  obtain ⟨ee, requests, cm, cv, cert, contents, h1, ⟨vb, hvb, hver⟩, h3, h4, ⟨gs, c1, c2, c3⟩, h6, h7, h8⟩ := R.server.flight
  have hin := R.fromServer hsz
  obtain ⟨s, h, p, cwire, g1, g2, g3, g4, g5, g6, g7, g8, g9, g10, hx⟩ := ClientProof.stops (init := r.ccs :: init) hown R.server hno
    (pre := (Tls13.plainRecord 22#8 r.sh :: r.ccs :: init).map fun v => [v]) (g := []) (tail := []) [] (by rw [EarlyProof.flatten_single, List.append_nil]) (by
      intro g hg
      obtain ⟨v, hv, rfl⟩ := List.mem_map.1 hg
      have hv' : v ∈ Tls13.plainRecord 22#8 r.sh :: r.ccs :: (init ++ [fin]) := by
        rcases List.mem_cons.1 hv with rfl | hv
        · simp
        rcases List.mem_cons.1 hv with rfl | hv <;> simp [*]
      exact ⟨by simp, by simpa using hin v hv'⟩) (by simpa using hin fin (by simp)) (by simp)
  have hreads : ((Tls13.plainRecord 22#8 r.sh :: r.ccs :: init).map fun v => [v]).map List.flatten ++ [([] ++ fin :: []).flatten] =
      Tls13.plainRecord 22#8 r.sh :: r.ccs :: (init ++ [fin]) := by
    simp [Function.comp_def]
  rw [hreads] at g1
  have hcount := R.serverCount
  have hsum := sum_le hin
  rw [List.length_cons, List.length_cons] at hsum
  obtain ⟨_, hC⟩ := C45_client_connects ce crng _ s h (fun c hc => by have := hown c hc; omega) hname (by
    show (Tls13.plainRecord 22#8 r.sh :: r.ccs :: (init ++ [fin])).flatten.length < _
    omega) g1
  obtain ⟨x5, m1, m2⟩ := ClientProof.presented_shown h1
  have hcf : contents.flatten = (serverMessages r.x ee requests cm cv).flatten := by
    rw [← c1, c2, List.flatten_flatten]
  have hsm : (serverMessages r.x ee requests cm cv).flatten = opening ee requests ++ cm ++ cv ++ r.x.sess.finished .server (r.x.hellos ++ (opening ee requests ++ cm ++ cv)) := by
    simp [serverMessages, opening]
  have hcn := (no_ccs h6).1
  have hk : contents.length < 2 ^ 60 := by rw [List.length_cons] at hcn; omega
  have htr : r.x.hellos ++ (opening ee requests ++ cm ++ cv) ++ r.x.sess.finished .server (r.x.hellos ++ (opening ee requests ++ cm ++ cv)) = r.transcript := by
    rw [h3, hsm]
    simp only [List.append_assoc]
  have hlen : (r.x.hellos ++ opening ee requests ++ cm).length < 2 ^ 53 := by
    have := congrArg List.length htr
    rw [h3] at this
    rw [h3] at h4
    simp only [List.length_append] at this h4 ⊢
    omega
  have hpos := ServerProof.verified_shown m1 hlen hver [] (fun _ => rfl)
  rw [List.append_nil, ← hvb] at hpos
  refine ⟨s, h, ⟨q.clientKey, r.ch, r.x, r.sh, Tls13.plainRecord 22#8 r.sh, contents, requests, opening ee requests ++ cm ++ cv, auth, cwire, []⟩, g1,
    ⟨R.offered, R.server.answered, R.server.hello, ⟨(Tls13.plainRecord 22#8 r.sh :: r.ccs :: (init ++ [fin])).flatten, (r.ccs :: (init ++ [fin])).flatten, by rw [g4, List.flatten_nil, List.append_nil], ?_, (flight_carried hx h6 (by omega)).1⟩, .nil,
      ⟨[], by rw [hcf, hsm, List.append_nil]⟩, ⟨ee, cm, cv, cert.raw, x5, rfl, m2, hpos⟩, ⟨(Tls13.plainRecord 22#8 r.ch).length, ?_, ?_, fun _ => rfl⟩, ?_, ?_, ?_⟩, rfl, rfl, rfl, rfl, htr⟩
  · show TakenFrom (Tls13.plainRecord 22#8 r.sh :: r.ccs :: (init ++ [fin])).flatten _
    have := taken_all (read := (Tls13.plainRecord 22#8 r.sh :: r.ccs :: (init ++ [fin])).flatten) (Tls13.plainRecord 22#8 r.sh :: r.ccs :: (init ++ [fin])) (by
      intro w hw
      rcases List.mem_cons.1 hw with rfl | hw
      · exact ⟨_, _, R.server.hello⟩
      · obtain ⟨t, c, _, hr⟩ := flight_whole hx h6 (by omega) w hw
        exact ⟨t, c, hr⟩) (fun w hw => infix_flatten hw)
    rw [List.append_nil]
    exact this
  · rw [g3, List.take_length]; rfl
  · exact hC.sent.choose_spec.2.1
  · unfold ClientRun.flight ClientRun.transcript
    simp only [htr]
    exact g2
  · unfold ClientRun.transcript
    simp only [htr]
    exact h7
  · refine ⟨p, g6, g7, ?_, ?_⟩ <;> unfold ClientRun.transcript <;> simp only [htr]
    · exact g9
    · exact g10

end AgreeProof

/-- The example server and client, with client authentication, meet all the hypotheses of `C88_client_partial`, `C88_server_partial`, `C88_client_keys` and `C88_server_keys`, and what they agree on includes the
certificate. -/
theorem C88_example : ∃ se ce sreads creads ssock csock ss cs h h' r context auth fin r', ServerConnection.accept se sreads ssock = (.ok ss, h) ∧
    ClientConnection.connect ce creads csock = (.ok cs, h') ∧ se.config.clientCertCa.isSome ∧
    Accepted se sreads ssock ss r context auth fin [] ∧ ClientCompleted ce creads csock cs r' ∧ se.config.cert.raw.length < 2 ^ 24 ∧
    (∀ c, ce.config.clientCert = some c → c.raw.length < 2 ^ 24) ∧ (∀ n, ce.config.serverName = some n → n.length < 2 ^ 24) ∧ csock.incoming.flatten.length < 2 ^ 24 ∧
    (r.transcript ++ auth.flatten).length < 2 ^ 24 ∧ r.before.length < 2 ^ 24 ∧ r.flight.getLast? = some (r'.x.sess.finished .server r'.before) ∧
    Tls13.NoCollision r.x.sess.hash (r.x.sess.finishedInputs .server r.before) (r'.x.sess.finishedInputs .server r'.before) ∧
    r.x.sess.finished .client (r.transcript ++ auth.flatten) = r'.x.sess.finished .client (r'.transcript ++ r'.auth.flatten) ∧
    Tls13.NoCollision r.x.sess.hash (r.x.sess.finishedInputs .client (r.transcript ++ auth.flatten)) (r'.x.sess.finishedInputs .client (r'.transcript ++ r'.auth.flatten)) ∧
    (∀ side, Tls13.NoCollision r.x.sess.hash (r.x.sess.keyInputs side) (r'.x.sess.keyInputs side)) ∧ r.x.cs = r'.x.cs ∧
    r.ch = r'.ch ∧ r'.sh = r.sh := by
  obtain ⟨-, ⟨ca, kc, ks, q, r, rng, auth, ws, cws, R⟩⟩ := example_runs
  have size : (Spec.X509.certificate ownTbs ownR ownS).length + 400 ≤ 2 ^ 24 := by decide +kernel
  have hsz : (Spec.X509.certificate ownTbs ownR ownS).length ≤ 1800 := by decide +kernel
  obtain ⟨ss, h, a1, a2⟩ := AgreeProof.run_accepted R rfl hsz
  obtain ⟨cs, h', r', b1, b2, hx, hch, hsh, hau, htr⟩ := AgreeProof.run_completed R hsz (fun c hc => by rw [← Option.some.inj hc]; exact size)
    (fun n hn => by rw [← Option.some.inj hn]; decide +kernel)
  obtain ⟨z1, z2, z3⟩ := AgreeProof.run_sizes R hsz (AgreeProof.auth_le R.client.proof)
  have hsum := AgreeProof.sum_le (R.fromServer hsz)
  have hcount := R.serverCount
  rw [List.length_cons, List.length_cons] at hsum
  obtain ⟨request, cv, _, _, hfl⟩ := R.client.flight
  have hbef : r.transcript = ({ r with swire := ws.flatten } : Exchange).before ++ r.x.sess.finished .server ({ r with swire := ws.flatten } : Exchange).before ∧
      r.flight.getLast? = some (r.x.sess.finished .server ({ r with swire := ws.flatten } : Exchange).before) := by
    unfold Exchange.before Exchange.transcript
    rw [hfl, show ∀ (a : List Bytes) (b c d : Bytes), a ++ [b, c, d] = (a ++ [b, c]) ++ [d] by simp]
    rw [List.dropLast_concat, List.getLast?_concat]
    refine ⟨?_, rfl⟩
    rw [List.flatten_append (L₂ := [_]), List.flatten_singleton, ← List.append_assoc]
  have hb : r'.before = ({ r with swire := ws.flatten } : Exchange).before := by
    have h1 : r'.before ++ r'.x.sess.finished .server r'.before = r'.transcript := rfl
    rw [htr, hbef.1, hx] at h1
    refine (List.append_inj' h1 ?_).1
    rw [RfcProof.finished_length, RfcProof.finished_length]
  have nc : ∀ (H : Hash) (l : List Bytes), Tls13.NoCollision H l l := by
    intro H l p hp _
    induction l with
    | nil => simp at hp
    | cons a l ih =>
      rw [List.zip_cons_cons] at hp
      rcases List.mem_cons.1 hp with rfl | hp
      · rfl
      · exact ih hp
  refine ⟨_, _, _, _, _, _, ss, cs, h, h', _, _, auth, _, r', a1, b1, rfl, a2, b2, ?_, fun c hc => ?_, fun n hn => ?_, ?_, ?_, ?_, ?_, ?_, ?_, ?_, fun side => ?_, ?_, hch.symm, hsh⟩
  · show (Spec.X509.certificate ownTbs ownR ownS).length < 2 ^ 24
    omega
  · rw [← Option.some.inj hc]
    show (Spec.X509.certificate ownTbs ownR ownS).length < 2 ^ 24
    omega
  · rw [← Option.some.inj hn]; decide +kernel
  · show (Tls13.plainRecord 22#8 r.sh :: r.ccs :: ws).flatten.length < 2 ^ 24
    omega
  · rw [List.length_append]
    show r.transcript.length + _ < _
    omega
  · have := congrArg List.length hbef.1
    rw [List.length_append] at this
    omega
  · rw [hb, hx]; exact hbef.2
  · rw [hb, hx]; exact nc _ _
  · rw [htr, hx, hau]; rfl
  · rw [htr, hx, hau]; exact nc _ _
  · rw [hx]; exact nc _ _
  · rw [hx]

end ATLS
