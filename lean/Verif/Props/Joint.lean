import Verif.Props.ServerComplete
import Verif.Props.ClientComplete
import Verif.Props.AgreementExample
/-
C103: handshake messages that share a record.
-/
namespace ATLS
open ATLS.Model ATLS.Spec FlowProof

/-- What a client does that answers the server as RFC 8446 prescribes: as `Conforming`, but its messages after the hello (the requested proof of identity
and Finished) are distributed over the records in any way, several in one record or each in its own; `contents`: what the records carry. -/
structure JoinedClient (env : ServerEnv) (reads : List Bytes) (r : Exchange) (rng : Rng) (context : Option Bytes) (auth contents records : List Bytes) : Prop where
  hello : Tls13.IsRecord 22#8 r.ch r.chRec
  answered : HelloAnsweredBy env reads r.x r.ch r.sh r.ccs rng
  drawn : Drawn env rng context
  flight : ServerFlight env r.x context r.flight
  proof : ClientAuth env r.x context r.transcript auth
  joined : Tls13.Coalesced (auth ++ [r.x.sess.finished .client (r.transcript ++ auth.flatten)]) contents
  records : Tls13.ProtectedFlight (aead r.x.c) (r.x.sess.key .client) (r.x.sess.iv .client) 0 contents records

/-- The client's part of C103: it completes the handshake with every conforming server, whose messages may share records. -/
def C103_client_statement : Prop :=
  ∀ (env : ClientEnv) (rng : List Bytes) (n : Int) (x : Params) (ch sh shRec messages : Bytes) (auth records incoming : List Bytes),
    (∀ c, env.config.clientCert = some c → c.raw.length + 400 ≤ 2 ^ 24) → ConformingServer env rng n x ch sh shRec messages auth records →
    Tls13.Pieces 2048 [] (shRec :: records) incoming → ∃ s h, ClientConnection.connect env rng ⟨incoming, [], []⟩ = (.ok s, h)

/-- The server's part, for clients whose messages and records satisfy `P`. -/
def C103_server_for (P : List Bytes → List Bytes → Prop) : Prop :=
  ∀ (env : ServerEnv) (reads : List Bytes) (r : Exchange) (rng : Rng) (context : Option Bytes) (auth contents records incoming : List Bytes),
    env.config.prngType = .urandom → env.config.cert.raw.length + 200 ≤ 2 ^ 24 → JoinedClient env reads r rng context auth contents records →
    P (auth ++ [r.x.sess.finished .client (r.transcript ++ auth.flatten)]) contents →
    Tls13.Delivers 4096 (r.chRec :: records) incoming → ∃ s h, ServerConnection.accept env reads ⟨incoming, [], []⟩ = (.ok s, h)

/-- C103 in full. -/
def C103_statement : Prop := C103_client_statement ∧ C103_server_for fun _ _ => True

namespace JointProof

theorem record_prefix {t t' : Byte} {c c' w w' x y : Bytes} (h : Tls13.IsRecord t c w) (h' : Tls13.IsRecord t' c' w') (he : w ++ x = w' ++ y) :
    w = w' ∧ x = y := by
  refine List.append_inj he ?_
  obtain ⟨v1, v2, hl, rfl⟩ := h
  obtain ⟨u1, u2, hl', rfl⟩ := h'
  have e := congrArg (fun l => (l.drop 3).take 2) he
  simp only [List.append_assoc, List.cons_append, List.nil_append, List.drop_succ_cons, List.drop_zero] at e
  rw [List.take_left' (beBytes_length _ _), List.take_left' (beBytes_length _ _)] at e
  have := congrArg beNat e
  rw [beNat_beBytes, beNat_beBytes] at this
  simp only [List.length_append, beBytes_length, List.length_cons, List.length_nil]
  omega

/-- The records that are not change_cipher_spec records. -/
def others (ws : List Bytes) : List Bytes := ws.filter fun w => w.head? ≠ some 20#8

theorem record_head {t : Byte} {c w : Bytes} (h : Tls13.IsRecord t c w) : w.head? = some t := by
  obtain ⟨v1, v2, _, rfl⟩ := h
  rfl

theorem carried_count {a : Tls13.Seal} {key iv : Bytes} {seq : Nat} {contents : List Bytes} {wire : Bytes} (h : Tls13.Carried a key iv seq contents wire) :
    ∀ (ws : List Bytes) (y : Bytes), (∀ w ∈ ws, ∃ t c, Tls13.IsRecord t c w) → wire ++ y = ws.flatten → contents.length ≤ (others ws).length := by
  induction h with
  | nil seq => intro ws y _ _; exact Nat.zero_le _
  | ccs seq contents c w rest h1 h2 ih =>
    intro ws y hws he
    cases ws with
    | nil =>
      obtain ⟨v1, v2, _, rfl⟩ := h1
      simp at he
    | cons w0 ws =>
      obtain ⟨t, c', hr⟩ := hws w0 (by simp)
      rw [List.flatten_cons, List.append_assoc] at he
      obtain ⟨e2, e3⟩ := record_prefix h1 hr he
      have := ih ws y (fun v hv => hws v (by simp [hv])) e3
      unfold others at this ⊢
      rw [List.filter_cons]
      split_ifs
      · rw [List.length_cons]; omega
      · exact this
  | cons seq content contents w rest h1 h0 h2 ih =>
    intro ws y hws he
    obtain ⟨t0, c0, ht0, h0⟩ := h0
    cases ws with
    | nil =>
      obtain ⟨v1, v2, _, rfl⟩ := h0
      simp at he
    | cons w0 ws =>
      obtain ⟨t, c', hr⟩ := hws w0 (by simp)
      rw [List.flatten_cons, List.append_assoc] at he
      obtain ⟨e2, e3⟩ := record_prefix h0 hr he
      have := ih ws y (fun v hv => hws v (by simp [hv])) e3
      unfold others at this ⊢
      rw [List.filter_cons, if_pos]
      · rw [List.length_cons, List.length_cons]; omega
      · rw [← e2, record_head h0]
        simp only [List.mem_cons, List.not_mem_nil, or_false, not_or] at ht0
        simpa using ht0.1

theorem flight_count {a : Tls13.Seal} {key iv : Bytes} {seq : Nat} {contents records : List Bytes} (h : Tls13.ProtectedFlight a key iv seq contents records) :
    (others records).length = contents.length := by
  induction h with
  | nil seq => rfl
  | ccs seq contents c w records h1 h2 ih =>
    unfold others at ih ⊢
    rw [List.filter_cons, if_neg (by rw [record_head h1]; simp)]
    exact ih
  | cons seq c contents w records h1 h2 ih =>
    unfold others at ih ⊢
    rw [List.filter_cons, if_pos, List.length_cons, List.length_cons, ih]
    obtain ⟨ct, tag, n, _, rfl, _⟩ := h1
    simp [Tls13.protectedHeader]

theorem coalesced_le {messages contents : List Bytes} (h : Tls13.Coalesced messages contents) : contents.length ≤ messages.length ∧
    (contents.length = messages.length → contents = messages) := by
  obtain ⟨groups, rfl, rfl, hne⟩ := h
  induction groups with
  | nil => simp
  | cons g gs ih =>
    obtain ⟨i1, i2⟩ := ih fun x hx => hne x (by simp [hx])
    have hg := List.length_pos_iff.2 (hne g (by simp))
    simp only [List.map_cons, List.length_cons, List.flatten_cons, List.length_append] at *
    refine ⟨by omega, fun he => ?_⟩
    rw [i2 (by omega)]
    obtain ⟨m, rfl⟩ := List.length_eq_one_iff.1 (show g.length = 1 by omega)
    simp

theorem ok_of {env : ServerEnv} {reads : List Bytes} {x : Params} {ch sh ccs : Bytes} {rng : Rng} (h : HelloAnsweredBy env reads x ch sh ccs rng) : x.Ok := by
  obtain ⟨hs, hello, answer, pk, share, body, _, _, _, _, _, _, _, hg, hss, _, _, _, hci, _⟩ := h
  obtain ⟨_, hel⟩ := fromHandshake_of (x := { x with hellos := [] }) (by simp) hg hss
  exact ⟨hci, by have : x.ecdhe.length = 32 := hel; omega⟩

end JointProof

/-- A server with a client CA hands out a stream only if at least four records arrived that are not change_cipher_spec records; without one, two. -/
theorem C103_server_needs (env : ServerEnv) (reads ws : List Bytes) (sock : Socket) (s : TlsStream) (h : ServerHandshake) (hc : env.config.cert.raw.length < 2 ^ 24)
    (hws : ∀ w ∈ ws, ∃ t c, Tls13.IsRecord t c w) (he : sock.incoming.flatten = ws.flatten) (ha : ServerConnection.accept env reads sock = (.ok s, h)) :
    (if env.config.clientCertCa.isSome then 4 else 2) ≤ (ws.filter fun w => w.head? ≠ some 20#8).length := by
  obtain ⟨r, context, auth, fin, tail, A⟩ := C42_server_accepts env reads sock s h hc ha
  obtain ⟨recv, e1, wire, rfl, hcar⟩ := A.received
  rw [he] at e1
  cases ws with
  | nil =>
    obtain ⟨v1, v2, _, h2⟩ := A.hello
    rw [h2] at e1
    simp at e1
  | cons w0 ws =>
    obtain ⟨t, c, hr⟩ := hws w0 (by simp)
    rw [List.flatten_cons, List.append_assoc, List.append_assoc] at e1
    obtain ⟨e2, e3⟩ := JointProof.record_prefix hr A.hello e1
    have h1 := JointProof.carried_count hcar ws (tail ++ s.stream.incoming.flatten) (fun v hv => hws v (by simp [hv])) e3.symm
    have h2 : auth.length + 1 = (if env.config.clientCertCa.isSome then 3 else 1) := by
      have := A.authenticated
      unfold ClientAuth at this
      cases hca : env.config.clientCertCa with
      | none => rw [hca] at this; rw [this]; rfl
      | some ca => rw [hca] at this; obtain ⟨m1, m2, _, rfl, _⟩ := this; rfl
    have hR : (w0 :: ws).filter (fun w => w.head? ≠ some 20#8) = w0 :: ws.filter fun w => w.head? ≠ some 20#8 := by
      rw [List.filter_cons, if_pos (by rw [e2, JointProof.record_head A.hello]; simp)]
    rw [hR]
    unfold JointProof.others at h1
    rw [List.length_append, List.length_singleton, h2] at h1
    rw [List.length_cons]
    split_ifs at h1 ⊢ <;> omega

/-- Every server that asks for a certificate loses messages: it never hands out a stream to a client whose Certificate, CertificateVerify and Finished messages
do not each come in a record of their own, whatever the reads are. -/
theorem C103_server_stuck (env : ServerEnv) (reads : List Bytes) (r : Exchange) (rng : Rng) (context : Option Bytes) (auth contents records incoming : List Bytes)
    (failures : List (Option Nat)) (hc : env.config.cert.raw.length < 2 ^ 24) (hj : JoinedClient env reads r rng context auth contents records)
    (hne : contents ≠ auth ++ [r.x.sess.finished .client (r.transcript ++ auth.flatten)]) (hi : incoming.flatten = (r.chRec :: records).flatten)
    (s : TlsStream) (h : ServerHandshake) : ServerConnection.accept env reads ⟨incoming, failures, []⟩ ≠ (.ok s, h) := by
  intro ha
  have hx := JointProof.ok_of hj.answered
  obtain ⟨c1, c2⟩ := JointProof.coalesced_le hj.joined
  have hlt : contents.length < auth.length + 1 := by
    rw [List.length_append, List.length_singleton] at c1 c2
    rcases Nat.lt_or_ge contents.length (auth.length + 1) with h1 | h1
    · exact h1
    · exact absurd (c2 (by omega)) hne
  have ha2 : auth.length ≤ 2 := AgreeProof.auth_le hj.proof
  have h1 := C103_server_needs env reads (r.chRec :: records) ⟨incoming, failures, []⟩ s h hc (fun w hw => by
    rcases List.mem_cons.1 hw with rfl | hw
    · exact ⟨_, _, hj.hello⟩
    · obtain ⟨t, c, _, hr⟩ := flight_whole hx hj.records (by omega) w hw
      exact ⟨t, c, hr⟩) hi ha
  have h2 := JointProof.flight_count hj.records
  unfold JointProof.others at h2
  have hR : (r.chRec :: records).filter (fun w => w.head? ≠ some 20#8) = r.chRec :: records.filter fun w => w.head? ≠ some 20#8 := by
    rw [List.filter_cons, if_pos (by rw [JointProof.record_head hj.hello]; simp)]
  rw [hR, List.length_cons, h2] at h1
  have h3 : auth.length + 2 = (if env.config.clientCertCa.isSome then 4 else 2) := by
    have := hj.proof
    unfold ClientAuth at this
    cases hca : env.config.clientCertCa with
    | none => rw [hca] at this; rw [this]; rfl
    | some ca => rw [hca] at this; obtain ⟨m1, m2, _, rfl, _⟩ := this; rfl
  omega

/-- C103 for servers whose clients send each message in a record of its own, and for all clients. Missing: what `C103_server_stuck` shows to fail. -/
theorem C103_separate_partial : C103_client_statement ∧ C103_server_for fun messages contents => contents = messages := by
  constructor
  · intro env rng n x ch sh shRec messages auth records incoming hown hc hd
    obtain ⟨s, h, _, _, h1, _⟩ := C76_client_completes env rng n x ch sh shRec messages auth records [] incoming hown hc (by simp) (by simpa using hd)
    exact ⟨s, h, h1⟩
  · intro env reads r rng context auth contents records incoming hu hcert hj hP hd
    obtain ⟨s, h, _, _, h1, _⟩ := C75_server_completes env reads r rng context auth [] records [] incoming hu hcert
      ⟨hj.hello, hj.answered, hj.drawn, hj.flight, hj.proof, by rw [List.append_nil, ← hP]; exact hj.records⟩ (by simp) (by simpa using hd)
    exact ⟨s, h, h1⟩

/-- C103 is false: the example client with client authentication, made to send CertificateVerify and Finished in one record. -/
theorem C103_false : ¬ C103_statement := by
  rintro ⟨_, hs⟩
  obtain ⟨_, ca, kc, ks, q, r, rng, auth, ws, cws, R⟩ := PairProof.example_runs
  have hc := R.client
  have hau := hc.proof
  unfold ClientAuth at hau
  obtain ⟨m1, m2, cert, rfl, _⟩ := hau
  obtain ⟨fin, hfin⟩ : ∃ fin, fin = r.x.sess.finished .client (r.transcript ++ [m1, m2].flatten) := ⟨_, rfl⟩
  have hrec := hc.records
  rw [List.append_nil, ← hfin] at hrec
  have hfl : fin.length ≤ 52 := by rw [hfin, RfcProof.finished_length]; cases r.x.t <;> decide
  have hcount := R.count
  have hx := R.ok
  have hshort := R.short
  -- the three records of the client
  obtain ⟨w1, w2, w3, rfl⟩ : ∃ w1 w2 w3, cws = [w1, w2, w3] := by
    match cws, hcount with
    | [a, b, c], _ => exact ⟨a, b, c, rfl⟩
  have hp1 : Tls13.Protected (aead r.x.c) (r.x.sess.key .client) (r.x.sess.iv .client) 0 22#8 m1 w1 ∧
      Tls13.Protected (aead r.x.c) (r.x.sess.key .client) (r.x.sess.iv .client) 1 22#8 m2 w2 := by
    clear hs R hc hfin hshort
    have hle : ∀ l : List Bytes, (JointProof.others l).length ≤ l.length := fun l => List.length_filter_le _ _
    cases hrec with
    | ccs _ _ c _ _ hh hrest =>
      have h1 : (JointProof.others [w2, w3]).length = 3 := JointProof.flight_count hrest
      have h2 : (JointProof.others [w2, w3]).length ≤ 2 := hle [w2, w3]
      omega
    | cons _ _ _ _ _ p1 hrest =>
      cases hrest with
      | ccs _ _ c _ _ hh hrest =>
        have h1 : (JointProof.others [w3]).length = 2 := JointProof.flight_count hrest
        have h2 : (JointProof.others [w3]).length ≤ 1 := hle [w3]
        omega
      | cons _ _ _ _ _ p2 hrest => exact ⟨p1, p2⟩
  obtain ⟨p1, p2⟩ := hp1
  obtain ⟨_, padding, hl2, _⟩ := protected_isRecord hx (by omega) p2
  have hw2 := hshort w2 (by simp)
  have hm2 : m2.length ≤ 4000 := by omega
  obtain ⟨w, hw, hwl⟩ : ∃ w, Tls13.Protected (aead r.x.c) (r.x.sess.key .client) (r.x.sess.iv .client) 1 22#8 (m2 ++ fin) w ∧ w.length ≤ 4096 := by
    obtain ⟨c, hcc⟩ : ∃ c, c = m2 ++ fin := ⟨_, rfl⟩
    have hcl : c.length ≤ 4052 := by rw [hcc, List.length_append]; omega
    rw [← hcc]
    obtain ⟨ct, tag, g1, g2, g3, _⟩ := C15_aead_round_trip r.x.cs r.x.c hx.cipher (r.x.hsKey .client 1).key (Tls13.nonce (r.x.hsKey .client 1).iv 1) (c ++ [22#8] ++ zeros 0)
      (Tls13.protectedHeader (c.length + 1 + 0)) (RecProof.suiteKeys (hsKey_sizes r.x .client 1) _) (by simp [Tls13.protectedHeader, beBytes_length]; omega)
    refine ⟨_, ⟨ct, tag, 0, by omega, rfl, ?_⟩, ?_⟩
    · have g1' : r.x.c.encrypt (r.x.sess.key .client) (Tls13.nonce (r.x.sess.iv .client) 1) (c ++ [22#8] ++ zeros 0) (Tls13.protectedHeader (c.length + 1 + 0)) = .ok (ct, tag) := g1
      unfold aead
      rw [g1']
    · simp only [List.length_append, g2, g3, Tls13.protectedHeader, beBytes_length, List.length_cons, List.length_nil, zeros_length]
      omega
  have hsz : (Spec.X509.certificate ownTbs ownR ownS).length ≤ 1800 := by decide +kernel
  have hnej : [m1, m2 ++ fin] ≠ [m1, m2] ++ [r.x.sess.finished .client (r.transcript ++ [m1, m2].flatten)] := by simp
  have hj : JoinedClient _ _ r rng (q.contextOf _) [m1, m2] [m1, m2 ++ fin] [w1, w] := ⟨hc.hello, hc.answered, hc.drawn, hc.flight, hc.proof,
    ⟨[[m1], [m2, fin]], by rw [hfin]; rfl, by simp, by simp⟩, .cons _ _ _ _ _ p1 (.cons _ _ _ _ _ hw (.nil _))⟩
  have hd : Tls13.Delivers 4096 (r.chRec :: [w1, w]) (r.chRec :: [w1, w]) := Tls13.delivers_single fun v hv => by
    simp only [List.mem_cons, List.not_mem_nil, or_false] at hv
    rcases hv with rfl | rfl | rfl
    · exact R.fromClient _ (by simp)
    · exact R.fromClient _ (by simp)
    · exact hwl
  obtain ⟨s, h, ha⟩ := hs _ _ r rng _ _ _ _ _ (by rfl) (show (Spec.X509.certificate ownTbs ownR ownS).length + 200 ≤ 2 ^ 24 by omega) hj trivial hd
  exact C103_server_stuck _ _ r rng _ _ _ _ _ [] (show (Spec.X509.certificate ownTbs ownR ownS).length < 2 ^ 24 by omega) hj hnej rfl s h ha

end ATLS
