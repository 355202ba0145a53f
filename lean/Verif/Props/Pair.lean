import Verif.Proof.Pair
/-
C60: a client and a server of the library with matching configuration complete the handshake.
-/
namespace ATLS
open ATLS.Model ATLS.Spec FlowProof PairProof

/-- C60 for the key shares that satisfy `S` and the signatures whose numbers satisfy `P`. -/
def C60_for (S : Bytes → Prop) (P : Int → Prop) : Prop :=
  ∀ (ce : ClientEnv) (se : ServerEnv) (crng srng : List Bytes) (q : Draws), Matching ce se → q.From se crng srng →
    S (publicShare q.clientKey) → S (publicShare q.serverKey) → Signed P q ce se → Completes ce se crng srng

/-- C60 in full: all random values. -/
def C60_statement : Prop := C60_for (fun _ => True) (fun _ => True)

namespace PairProof

theorem coalesced_single : ∀ ms : List Bytes, Tls13.Coalesced ms ms := fun ms =>
  ⟨ms.map fun m => [m], by induction ms with
    | nil => rfl
    | cons a l ih => rw [List.map_cons, List.flatten_cons, ih]; rfl,
   by rw [List.map_map]; induction ms with
    | nil => rfl
    | cons a l ih => rw [List.map_cons, ← ih]; simp,
   by intro g hg; obtain ⟨m, _, rfl⟩ := List.mem_map.1 hg; simp⟩

theorem forall2_le {ws ms : List Bytes} (h : List.Forall₂ (fun w m : Bytes => w.length = m.length + 22) ws ms) {n : Nat} (hm : ∀ m ∈ ms, m.length + 22 ≤ n) :
    ∀ w ∈ ws, w.length ≤ n := by
  induction h with
  | nil => simp
  | cons h _ ih =>
    intro w hw
    rcases List.mem_cons.1 hw with rfl | hw
    · have := hm _ List.mem_cons_self
      omega
    · exact ih (fun m hm' => hm m (List.mem_cons_of_mem _ hm')) w hw

theorem forall2_ne {ws ms : List Bytes} (h : List.Forall₂ (fun w m : Bytes => w.length = m.length + 22) ws ms) : [] ∉ ws := by
  induction h with
  | nil => simp
  | cons h _ ih =>
    intro hw
    rcases List.mem_cons.1 hw with rfl | hw
    · rw [List.length_nil] at h
      omega
    · exact ih hw

/-- The server's flight. -/
theorem flight_of {q : Draws} {ce : ClientEnv} {se : ServerEnv} {crng srng : List Bytes} (h : q.From se crng srng) (hm : Matching ce se)
    {x : X509} (hid : Identity se.config.cert.raw se.config.privkey ce.now x)
    (hsh : q.serverHello.length ≤ 200) (hsig : Signs (fun v => 2 ^ 248 ≤ v) se.nonces se.config.privkey (Tls13.verifyContent .server ((q.params ce).sess.hash.H (q.presented ce se)))) :
    ∃ vb flight, ServerFlight se (q.params ce) (q.contextOf se) flight ∧
      flight = serverMessages (q.params ce) [0#8, 0#8] (q.requests se) (certificateMsg se.config.cert) (Tls13.handshakeMessage 15#8 vb) ∧
      Verified ⟨se.config.cert.raw, some x⟩ .server (ts .sha256 (q.presented ce se)) vb ∧
      (∀ m ∈ flight, m.length ≤ se.config.cert.raw.length + 120) ∧ flight.length ≤ 5 := by
  have hs := sizes h
  have hoff := offer_le q (ce := ce) hs (fun a ha => (hm.utf8 a ha).2)
  have hsize := hm.size
  have lcm : (certificateMsg se.config.cert).length ≤ se.config.cert.raw.length + 100 := by
    simp [certificateMsg, Tls13.handshakeMessage, Tls13.certificateMessage, Tls13.certificateEntry, beBytes_length]
    omega
  have hreq : Requested se (q.contextOf se) ((q.requests se).map (Tls13.handshakeMessage 13#8)) ∧
      (∀ m ∈ (q.requests se).map (Tls13.handshakeMessage 13#8), m.length ≤ 100) ∧ (q.requests se).length ≤ 1 := by
    unfold Requested Draws.contextOf Draws.requests
    cases hc : se.config.clientCertCa with
    | none => exact ⟨⟨rfl, rfl⟩, by simp, by simp⟩
    | some ca =>
      have h32 := hs.context (by rw [hc]; rfl)
      refine ⟨⟨q.context, h32, rfl, rfl⟩, ?_, by simp⟩
      intro m hm'
      simp only [List.map_cons, List.map_nil, List.mem_singleton] at hm'
      rw [hm']
      simp [Tls13.handshakeMessage, Tls13.certificateRequest, beBytes_length, h32]
  obtain ⟨hreq, lreq, nreq⟩ := hreq
  have hpres : (q.params ce).hellos ++ ([encryptedExtensions] ++ (q.requests se).map (Tls13.handshakeMessage 13#8) ++ [certificateMsg se.config.cert]).flatten =
      q.presented ce se := by
    simp [Draws.presented, Draws.params, List.append_assoc]
  have lpres : (q.presented ce se).length < 40000 := by
    have lee : encryptedExtensions.length = 6 := rfl
    have lch : (q.clientHello ce).length ≤ 4004 := by
      simp only [Draws.clientHello, Tls13.handshakeMessage, List.length_append, beBytes_length, List.length_singleton]
      omega
    have lr : ((q.requests se).map (Tls13.handshakeMessage 13#8)).flatten.length ≤ 100 := by
      cases hr : q.requests se with
      | nil => simp
      | cons a l =>
        rw [hr] at nreq lreq
        cases l with
        | nil =>
          have := lreq (Tls13.handshakeMessage 13#8 a) (by simp)
          simpa using this
        | cons b l => simp at nreq
    simp only [Draws.presented, List.length_append]
    omega
  obtain ⟨sig, der, g1, g2, g3, g4⟩ := verified_of hid .server (by omega) hsig
  refine ⟨Tls13.certificateVerifyMessage 0x0403 der, _, ⟨_, Tls13.handshakeMessage 15#8 (Tls13.certificateVerifyMessage 0x0403 der), hreq, ⟨sig, der, ?_, g2, rfl⟩, rfl⟩, ?_, g4, ?_, ?_⟩
  · rw [hpres]
    exact g1
  · unfold serverMessages
    have : (q.params ce).hellos ++ ([encryptedExtensions] ++ (q.requests se).map (Tls13.handshakeMessage 13#8) ++ [certificateMsg se.config.cert,
        Tls13.handshakeMessage 15#8 (Tls13.certificateVerifyMessage 0x0403 der)]).flatten =
        (q.params ce).hellos ++ opening [0#8, 0#8] (q.requests se) ++ certificateMsg se.config.cert ++
          Tls13.handshakeMessage 15#8 (Tls13.certificateVerifyMessage 0x0403 der) := by
      simp [opening, encryptedExtensions, List.append_assoc]
    rw [this]
    rfl
  · intro m hm'
    rw [List.mem_append, List.mem_append] at hm'
    rcases hm' with (hm' | hm') | hm'
    · rw [List.mem_singleton.1 hm', show encryptedExtensions.length = 6 from rfl]; omega
    · have := lreq m hm'
      omega
    · simp only [List.mem_cons, List.not_mem_nil, or_false] at hm'
      rcases hm' with rfl | rfl | rfl
      · omega
      · simp [Tls13.handshakeMessage, Tls13.certificateVerifyMessage, beBytes_length]
        omega
      · have := finished_le (q.params ce) .server ((q.params ce).hellos ++ ([encryptedExtensions] ++ (q.requests se).map (Tls13.handshakeMessage 13#8) ++ [certificateMsg se.config.cert,
          Tls13.handshakeMessage 15#8 (Tls13.certificateVerifyMessage 0x0403 der)]).flatten) (by
            have e : (q.params ce).hellos ++ ([encryptedExtensions] ++ (q.requests se).map (Tls13.handshakeMessage 13#8) ++ [certificateMsg se.config.cert,
                Tls13.handshakeMessage 15#8 (Tls13.certificateVerifyMessage 0x0403 der)]).flatten =
                q.presented ce se ++ Tls13.handshakeMessage 15#8 (Tls13.certificateVerifyMessage 0x0403 der) := by
              simp [Draws.presented, Draws.params, List.append_assoc]
            rw [e]
            simp [Tls13.handshakeMessage, Tls13.certificateVerifyMessage, beBytes_length]
            omega)
        omega
  · simp
    omega

/-- What the two ends do: with `x`, `sh`, `flight`, the server's records `ws` after its hello, the client's messages `auth` and its records `cws`. -/
structure Runs (ce : ClientEnv) (se : ServerEnv) (crng srng : List Bytes) (q : Draws) (r : Exchange) (rng : Rng) (auth ws cws : List Bytes) : Prop where
  ccs : r.ccs = Tls13.plainRecord 20#8 [1#8]
  rec_ : r.chRec = Tls13.plainRecord 22#8 r.ch
  arrives : ∃ reads, Tls13.Pieces 2048 [] (Tls13.plainRecord 22#8 r.sh :: r.ccs :: ws) reads
  nonempty : [] ∉ Tls13.plainRecord 22#8 r.sh :: r.ccs :: ws
  fromServer : se.config.cert.raw.length ≤ 1800 → ∀ w ∈ Tls13.plainRecord 22#8 r.sh :: r.ccs :: ws, w.length ≤ 2048
  fromClient : ∀ w ∈ r.chRec :: cws, w.length ≤ 4096
  offered : Offered ce crng q.clientKey r.ch
  server : ConformingServer ce crng q.clientKey r.x r.ch r.sh (Tls13.plainRecord 22#8 r.sh) r.transcript auth (r.ccs :: ws)
  client : Conforming se srng r rng (q.contextOf se) auth [] cws
  sentServer : Tls13.Sent (aead r.x.c) (r.x.sess.key .server) (r.x.sess.iv .server) 0 r.flight ws.flatten
  sentClient : Tls13.Sent (aead r.x.c) (r.x.sess.key .client) (r.x.sess.iv .client) 0 (auth ++ [r.x.sess.finished .client (r.transcript ++ auth.flatten)]) cws.flatten
  count : cws.length = auth.length + 1
  serverCount : ws.length ≤ 5
  ok : r.x.Ok
  short : ∀ w ∈ cws, w.length ≤ 4022
  serverLast : ∃ init fin, ws = init ++ [fin] ∧ ¬ ∃ c, Tls13.IsRecord 20#8 c fin
  serverShort : se.config.cert.raw.length ≤ 1800 → ∀ w ∈ ws, w.length ≤ 2022
  hello : 4 ≤ r.sh.length ∧ r.sh.length ≤ 200

theorem runs {ce : ClientEnv} {se : ServerEnv} {crng srng : List Bytes} {q : Draws} (hm : Matching ce se) (hq : q.From se crng srng)
    (h1 : (publicShare q.clientKey).getD 0 0 ≠ 0) (h2 : (publicShare q.serverKey).getD 0 0 ≠ 0) (hsig : Signed (fun v => 2 ^ 248 ≤ v) q ce se) :
    ∃ r rng auth ws cws, Runs ce se crng srng q r rng auth ws cws := by
  have hs := sizes hq
  have hoff := offer_le q (ce := ce) hs (fun a ha => (hm.utf8 a ha).2)
  obtain ⟨⟨rng, hans, hctx⟩, hsans, hshl⟩ := answered hq hm h1 h2
  obtain ⟨x509, hid⟩ := hm.server
  obtain ⟨vb, flight, hfl, hfm, hver, hfl0, hfn⟩ := flight_of hq hm hid hshl hsig.server
  obtain ⟨x, hx⟩ : ∃ x, x = q.params ce := ⟨_, rfl⟩
  obtain ⟨ch, hch⟩ : ∃ ch, ch = q.clientHello ce := ⟨_, rfl⟩
  obtain ⟨sh, hsh⟩ : ∃ sh, sh = q.serverHello := ⟨_, rfl⟩
  have hsigc := hsig.client
  have ho := offered (ce := ce) hq
  have hpres : q.presented ce se = x.hellos ++ opening [0#8, 0#8] (q.requests se) ++ certificateMsg se.config.cert := by
    rw [hx]
    simp [Draws.presented, Draws.params, opening, encryptedExtensions, List.append_assoc]
  have hlch : ch.length ≤ 4004 := by
    rw [hch]
    simp only [Draws.clientHello, Tls13.handshakeMessage, List.length_append, beBytes_length, List.length_singleton]
    omega
  have hxh : x.hellos = ch ++ sh := by rw [hx, hch, hsh]; rfl
  have hxt : x.t = .sha256 := by rw [hx]; rfl
  rw [hpres] at hver
  rw [← hx] at hans hsans hfl hfm hsigc
  rw [← hch] at hans hsans ho
  rw [← hsh] at hans hsans hshl
  have hcr : Tls13.IsRecord 22#8 ch (Tls13.plainRecord 22#8 ch) := ⟨3#8, 3#8, by omega, rfl⟩
  have hsr : Tls13.IsRecord 22#8 sh (Tls13.plainRecord 22#8 sh) := ⟨3#8, 3#8, by omega, rfl⟩
  have hccs : Tls13.IsRecord 20#8 [1#8] (Tls13.plainRecord 20#8 [1#8]) := ⟨3#8, 3#8, by decide, rfl⟩
  have hpl : ∀ (t : Byte) (c : Bytes), (Tls13.plainRecord t c).length = c.length + 5 := by
    intro t c
    simp [Tls13.plainRecord, beBytes_length]
    omega
  have hdrawn : Drawn se rng (q.contextOf se) := by
    unfold Drawn Draws.contextOf
    cases hc : se.config.clientCertCa with
    | none => rfl
    | some ca =>
      obtain ⟨rng', hr⟩ := hctx ca hc
      exact ⟨_, _, hr, rfl⟩
  have hsize := hm.size
  have hfle : ∀ m ∈ flight, m.length ≤ 16120 := fun m h => by have := hfl0 m h; omega
  have hfls : se.config.cert.raw.length ≤ 1800 → ∀ m ∈ flight, m.length ≤ 1920 := fun hs m h => by have := hfl0 m h; omega
  -- the server's flight
  have hxok : x.Ok := by
    obtain ⟨_, _, h, _⟩ := ServerProof.server_first hm.prng (by omega) hcr (by omega) hans hdrawn hfl
    exact h
  obtain ⟨hs1, swire, a1, a2, a3⟩ := C75_server_flight_first se srng ⟨x, Tls13.plainRecord 22#8 ch, ch, sh, Tls13.plainRecord 20#8 [1#8], [], flight⟩ rng
    (q.contextOf se) hm.prng (by omega) hcr hans hdrawn hfl (by simp only [hpl]; omega)
  simp only [] at a1 a2 a3
  obtain ⟨ws, b1, b2, b3⟩ := sent_flight hxok a2 (by omega) (fun m hm' => by have := hfle m hm'; omega)
  have hT : x.hellos ++ flight.flatten = x.hellos ++ (serverMessages x [0#8, 0#8] (q.requests se) (certificateMsg se.config.cert) (Tls13.handshakeMessage 15#8 vb)).flatten := by
    rw [hfm]
  -- the client's answer
  obtain ⟨auth, hauth, hcauth, hal, han⟩ : ∃ auth, ClientAnswer ce x (x.hellos ++ flight.flatten) (q.requests se).getLast? auth ∧
      ClientAuth se x (q.contextOf se) (x.hellos ++ flight.flatten) auth ∧ (∀ m ∈ auth, m.length ≤ 4000) ∧ auth.length ≤ 2 := by
    cases hc : se.config.clientCertCa with
    | none =>
      refine ⟨[], ?_, ?_, by simp, by simp⟩
      · unfold Draws.requests
        rw [hc]
        rfl
      · unfold ClientAuth
        rw [hc]
    | some ca =>
      have h32 := hs.context (by rw [hc]; rfl)
      obtain ⟨cert, key, xc, c1, c2, c3, c4, c5, c6⟩ := hm.auth ca hc
      have hsg := hsigc flight ca cert key hc c1 c2 hfl
      obtain ⟨cm, hcm⟩ : ∃ cm, cm = Tls13.handshakeMessage 11#8 (Tls13.certificateMessage q.context [(cert.raw, [])]) := ⟨_, rfl⟩
      have hcml : (Tls13.certificateMessage q.context [(cert.raw, [])]).length ≤ 3941 := by
        simp [Tls13.certificateMessage, Tls13.certificateEntry, beBytes_length, h32]
        omega
      have hcml' : cm.length ≤ 3945 := by
        rw [hcm]
        simp only [Tls13.handshakeMessage, List.length_append, beBytes_length, List.length_singleton]
        omega
      rw [← hcm] at hsg
      have hflat : flight.flatten.length ≤ 80600 := by
        rw [List.length_flatten]
        have := List.sum_le_card_nsmul (flight.map List.length) 16120 (by
          intro n hn
          obtain ⟨m, h3, rfl⟩ := List.mem_map.1 hn
          exact hfle m h3)
        rw [List.length_map, smul_eq_mul] at this
        omega
      have hhash : x.sess.hash = rfcHash .sha256 := by rw [hx]; rfl
      rw [hhash] at hsg
      obtain ⟨sig, der, g1, g2, g3, g4⟩ := verified_of (m := x.hellos ++ flight.flatten ++ cm) c3 .client (by
        simp only [List.length_append, hxh]
        omega) hsg
      have hraw1 := fromRaw_message .certificate (Tls13.certificateMessage q.context [(cert.raw, [])]) [] (by omega)
      have hraw2 := fromRaw_message .certificateVerify (Tls13.certificateVerifyMessage 0x0403 der) [] (by
        simp [Tls13.certificateVerifyMessage, beBytes_length]
        omega)
      rw [List.append_nil] at hraw1 hraw2
      refine ⟨[cm, Tls13.handshakeMessage 15#8 (Tls13.certificateVerifyMessage 0x0403 der)], ?_, ?_, ?_, by simp⟩
      · unfold Draws.requests ClientAnswer
        rw [hc]
        refine ⟨q.context, _, [], by omega, by rw [List.append_nil]; rfl, ?_⟩
        rw [c1]
        exact ⟨key, sig, cm, der, c2, hcm, by rw [hhash]; exact g1, g2, rfl⟩
      · unfold ClientAuth Draws.contextOf
        rw [hc]
        refine ⟨_, _, ⟨cert.raw, some xc⟩, rfl, ⟨ca, _, q.context, beBytes 3 ([(cert.raw, ([] : Bytes))].map Tls13.certificateEntry).flatten.length ++
          ([(cert.raw, ([] : Bytes))].map Tls13.certificateEntry).flatten, xc, hc, by rw [hcm]; exact hraw1, rfl, rfl, ?_, presented_of c3 q.context (by omega) (by omega), c5, rfl, c6⟩,
          ⟨_, hraw2, rfl, by rw [hxt]; exact g4⟩⟩
        simp only [Tls13.certificateMessage, List.append_assoc]
      · intro m hm'
        simp only [List.mem_cons, List.not_mem_nil, or_false] at hm'
        rcases hm' with rfl | rfl
        · omega
        · simp [Tls13.handshakeMessage, Tls13.certificateVerifyMessage, beBytes_length]
          omega
  obtain ⟨T, hTdef⟩ : ∃ T, T = x.hellos ++ flight.flatten := ⟨_, rfl⟩
  have hTl : T.length < 2 ^ 50 := by
    have hflat : flight.flatten.length ≤ 80600 := by
      rw [List.length_flatten]
      have := List.sum_le_card_nsmul (flight.map List.length) 16120 (by
        intro n hn
        obtain ⟨m, h3, rfl⟩ := List.mem_map.1 hn
        exact hfle m h3)
      rw [List.length_map, smul_eq_mul] at this
      omega
    rw [hTdef]
    simp only [List.length_append, hxh]
    omega
  have hcs : ConformingServer ce crng q.clientKey x ch sh (Tls13.plainRecord 22#8 sh) T auth (Tls13.plainRecord 20#8 [1#8] :: ws) := by
    refine ⟨ho, hsr, hsans, [0#8, 0#8], q.requests se, certificateMsg se.config.cert, Tls13.handshakeMessage 15#8 vb, ⟨se.config.cert.raw, some x509⟩, flight,
      ⟨_, rfl, presented_of hid [] (by simp) (by omega)⟩, ⟨vb, rfl, by rw [hxt]; exact hver⟩, hTdef.trans hT, hTl, by rw [← hfm]; exact coalesced_single _,
      .ccs _ _ _ _ _ hccs b2, by rw [hTdef]; exact hauth, ?_⟩
    intro b hb
    unfold Draws.requests at hb
    cases hc : se.config.clientCertCa with
    | none => rw [hc] at hb; cases hb
    | some ca =>
      rw [hc] at hb
      cases hb
      exact C76_request _ _ (by rw [hs.context (by rw [hc]; rfl)]; decide) (by simp)
  have hne : [] ∉ Tls13.plainRecord 22#8 sh :: Tls13.plainRecord 20#8 [1#8] :: ws := by
    intro hw
    simp only [List.mem_cons] at hw
    rcases hw with hw | hw | hw
    · simp [Tls13.plainRecord] at hw
    · simp [Tls13.plainRecord] at hw
    · exact forall2_ne b3 hw
  obtain ⟨reads, hreads⟩ := Tls13.pieces_exist (cap := 2048) (by decide) _ hne
  have hfs : se.config.cert.raw.length ≤ 1800 → ∀ w ∈ Tls13.plainRecord 22#8 sh :: Tls13.plainRecord 20#8 [1#8] :: ws, w.length ≤ 2048 := by
    intro hsm w hw
    simp only [List.mem_cons] at hw
    rcases hw with rfl | rfl | hw
    · rw [hpl]; omega
    · decide
    · exact forall2_le b3 (fun m hm' => by have := hfls hsm m hm'; omega) w hw
  have hclient := C76_client_completes ce crng q.clientKey x ch sh (Tls13.plainRecord 22#8 sh) T auth (Tls13.plainRecord 20#8 [1#8] :: ws) []
  obtain ⟨_, _, cwire, _, _, d1, _⟩ := hclient _ hm.other hcs (by simp) (by rw [List.append_nil]; exact hreads)
  have hfin : (x.sess.finished .client (T ++ auth.flatten)).length ≤ 52 := by
    apply finished_le
    have : auth.flatten.length ≤ 8000 := by
      rw [List.length_flatten]
      have := List.sum_le_card_nsmul (auth.map List.length) 4000 (by
        intro n hn
        obtain ⟨m, h3, rfl⟩ := List.mem_map.1 hn
        exact hal m h3)
      rw [List.length_map, smul_eq_mul] at this
      omega
    rw [List.length_append]
    omega
  have hall : ∀ m ∈ auth ++ [x.sess.finished .client (T ++ auth.flatten)], m.length ≤ 4000 := by
    intro m hm'
    rcases List.mem_append.1 hm' with hm' | hm'
    · exact hal m hm'
    · rw [List.mem_singleton.1 hm']; omega
  obtain ⟨cws, e1, e2, e3⟩ := sent_flight hxok d1 (by simp; omega) (fun m hm' => by have := hall m hm'; omega)
  have hconf : Conforming se srng ⟨x, Tls13.plainRecord 22#8 ch, ch, sh, Tls13.plainRecord 20#8 [1#8], [], flight⟩ rng (q.contextOf se) auth [] cws := by
    refine ⟨hcr, hans, hdrawn, hfl, hcauth, ?_⟩
    rw [List.append_nil, Exchange.transcript]
    simp only []
    rw [← hTdef]
    exact e2
  refine ⟨⟨x, Tls13.plainRecord 22#8 ch, ch, sh, Tls13.plainRecord 20#8 [1#8], [], flight⟩, rng, auth, ws, cws, rfl, rfl, ⟨reads, hreads⟩, hne, hfs, ?_, ho, ?_, hconf, by rw [← b1]; exact a2, ?_, by
    rw [e3.length_eq]; simp, by rw [b3.length_eq]; exact hfn, hxok, forall2_le e3 (fun m hm' => by have := hall m hm'; omega), ?_,
    fun hsm => forall2_le b3 (fun m hm' => by have := hfls hsm m hm'; omega), ⟨by
      show 4 ≤ sh.length
      rw [hsh]
      simp only [Draws.serverHello, Tls13.handshakeMessage, List.length_append, beBytes_length, List.length_singleton]
      omega, hshl⟩⟩
  · intro w hw
    rcases List.mem_cons.1 hw with rfl | hw
    · show (Tls13.plainRecord 22#8 ch).length ≤ _
      rw [hpl]; omega
    · exact forall2_le e3 (fun m hm' => by have := hall m hm'; omega) w hw
  · show ConformingServer ce crng q.clientKey x ch sh _ (x.hellos ++ flight.flatten) _ _
    rw [← hTdef]
    exact hcs
  · show Tls13.Sent (aead x.c) (x.sess.key .client) (x.sess.iv .client) 0 (auth ++ [x.sess.finished .client (x.hellos ++ flight.flatten ++ auth.flatten)]) cws.flatten
    rw [← hTdef, ← e1]
    exact d1
  · rcases List.eq_nil_or_concat ws with hnil | ⟨wi, wf, hw⟩
    · obtain ⟨_, _, _, _, hflight⟩ := hfl
      have := b3.length_eq
      rw [hnil, hflight] at this
      simp at this
    rw [List.concat_eq_append] at hw
    refine ⟨wi, wf, hw, (no_ccs b2).2 b3.length_eq wf (by rw [hw]; simp)⟩

end PairProof

/-- C60 when neither key share starts with a zero byte and the numbers of the signatures have a full 32 bytes. Missing: a share that starts with a
zero byte makes the secrets differ (`C33_false`), a shorter number of a signature is encoded wrongly (`C69_false`). -/
theorem C60_handshake_partial : C60_for (fun share => share.getD 0 0 ≠ 0) (fun v => 2 ^ 248 ≤ v) := by
  intro ce se crng srng q hm hq h1 h2 hsig
  have hsize := hm.size
  obtain ⟨r, rng, auth, ws, cws, R⟩ := runs hm hq h1 h2 hsig
  have hrec := R.rec_
  have hin := R.fromClient
  refine ⟨r.chRec, Tls13.plainRecord 22#8 r.sh :: r.ccs :: ws, cws, r.x.c, r.x.appKey r.transcript .client, r.x.appKey r.transcript .server, R.arrives, hin, ?_, ?_, ?_, ?_⟩
  · rw [hrec]
    exact C76_client_hello_first ce crng q.clientKey r.ch R.offered
  · obtain ⟨h, swire, a1, a2, a3⟩ := C75_server_flight_first se srng r rng (q.contextOf se) hm.prng (by omega) R.client.hello R.client.answered R.client.drawn
      R.client.flight (hin _ List.mem_cons_self)
    refine ⟨h, a1, ?_⟩
    rw [a3, sent_unique a2 R.sentServer]
    simp [List.append_assoc]
  · intro incoming hd
    obtain ⟨s, h, cwire', p, f1, f2, f3, f4, f5, f6, f7, f8⟩ := C76_client_completes ce crng q.clientKey r.x r.ch r.sh (Tls13.plainRecord 22#8 r.sh) r.transcript auth
      (r.ccs :: ws) [] incoming hm.other R.server (by simp) (by rw [List.append_nil]; exact hd)
    refine ⟨s, h, p, f1, ?_, f4, f5, f6, f7, f8⟩
    rw [f3, sent_unique f2 R.sentClient, hrec]
  · intro incoming hd
    obtain ⟨s, h, swire', p, f1, f2, f3, f4, f5, f6, f7, f8⟩ := C75_server_completes se srng r rng (q.contextOf se) auth [] cws [] incoming hm.prng (by omega) R.client (by simp)
      (by rw [List.append_nil]; exact hd)
    refine ⟨s, h, p, f1, ?_, f4, f5, f6, f7, f8⟩
    rw [f3, sent_unique f2 R.sentServer]
    simp [List.append_assoc]

end ATLS
