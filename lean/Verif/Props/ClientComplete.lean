import Verif.Proof.ClientFwd
import Verif.Props.ServerComplete
/-
C76: the client completes the handshake with every server that answers as RFC 8446 prescribes.
-/
namespace ATLS
open ATLS.Model ATLS.Spec FlowProof ClientProof

/-- The server's messages after its hello, one by one: EncryptedExtensions, certificate requests, Certificate, CertificateVerify, Finished. -/
def serverMessages (x : Params) (ee : Bytes) (requests : List Bytes) (cm cv : Bytes) : List Bytes :=
  [Tls13.handshakeMessage 8#8 ee] ++ requests.map (Tls13.handshakeMessage 13#8) ++
    [cm, cv, x.sess.finished .server (x.hellos ++ opening ee requests ++ cm ++ cv)]

/-- What a conforming server does: its ServerHello answers the client's hello, and its further records carry its messages, protected with the server's
handshake traffic key, several messages in one record or each in its own. `messages`: the transcript through the server's Finished. `auth`: how the
client answers the last certificate request. -/
structure ConformingServer (env : ClientEnv) (rng : List Bytes) (n : Int) (x : Params) (ch sh shRec : Bytes) (messages : Bytes) (auth : List Bytes)
    (records : List Bytes) : Prop where
  offered : Offered env rng n ch
  hello : Tls13.IsRecord 22#8 sh shRec
  answered : ServerAnswered x n ch sh
  flight : ∃ ee requests cm cv cert contents, ServerPresented env cm cert ∧ ServerPossessed x (x.hellos ++ opening ee requests ++ cm) cv cert ∧
    messages = x.hellos ++ (serverMessages x ee requests cm cv).flatten ∧ messages.length < 2 ^ 50 ∧
    Tls13.Coalesced (serverMessages x ee requests cm cv) contents ∧
    Tls13.ProtectedFlight (aead x.c) (x.sess.key .server) (x.sess.iv .server) 0 contents records ∧
    ClientAnswer env x messages requests.getLast? auth ∧ ∀ b, requests.getLast? = some b → Tls13.IsCertificateRequest b

namespace ClientProof

theorem requestLoop_of : ∀ (extensions : List (Nat × Bytes)) (fuel : Nat) (acc : List (List SignatureScheme)),
    (∀ e ∈ extensions, e.1 < 2 ^ 16 ∧ e.1 ∉ [0, 43, 51] ∧ e.2.length < 2 ^ 16) →
    (extensions.map fun e => beBytes 2 e.1 ++ beBytes 2 e.2.length ++ e.2).flatten.length ≤ fuel →
    fromRequestLoop fuel (extensions.map fun e => beBytes 2 e.1 ++ beBytes 2 e.2.length ++ e.2).flatten acc = .ok acc
  | [], fuel, acc, _, _ => by cases fuel <;> rfl
  | e :: es, fuel, acc, h, hf => by
    obtain ⟨h1, h2, h3⟩ := h e (by simp)
    obtain ⟨rest, hrest⟩ : ∃ rest, rest = (es.map fun e => beBytes 2 e.1 ++ beBytes 2 e.2.length ++ e.2).flatten := ⟨_, rfl⟩
    have hw : ((e :: es).map fun e => beBytes 2 e.1 ++ beBytes 2 e.2.length ++ e.2).flatten = beBytes 2 e.1 ++ (beBytes 2 e.2.length ++ (e.2 ++ rest)) := by
      rw [List.map_cons, List.flatten_cons, ← hrest]
      simp only [List.append_assoc]
    rw [hw] at hf ⊢
    simp only [List.length_append, beBytes_length] at hf
    obtain ⟨fuel, rfl⟩ : ∃ k, fuel = k + 1 := ⟨fuel - 1, by omega⟩
    unfold fromRequestLoop
    rw [if_neg (by intro hc; have := congrArg List.length hc; simp [beBytes_length] at this)]
    rw [WireProof.slice_pre _ _ (by rw [beBytes_length]), Res.ok_bind]
    rw [WireProof.slice_mid _ _ _ (by rw [beBytes_length]) (by rw [beBytes_length]), Res.ok_bind]
    rw [HelloProof.toU16_be' _ h1, HelloProof.toU16_be' _ h3]
    have hn : ExtensionType.new e.1 = none := by
      simp only [List.mem_cons, List.not_mem_nil, or_false, not_or] at h2
      unfold ExtensionType.new
      rw [if_neg h2.1, if_neg h2.2.1, if_neg h2.2.2]
    rw [hn]
    have hd : (beBytes 2 e.1 ++ (beBytes 2 e.2.length ++ (e.2 ++ rest))).drop (4 + e.2.length) = rest := by
      rw [← List.append_assoc, ← List.append_assoc]
      exact List.drop_left' (by simp [beBytes_length]; omega)
    simp only [hd]
    rw [hrest]
    exact requestLoop_of es fuel acc (fun e' he => h e' (List.mem_cons_of_mem _ he)) (by rw [← hrest]; omega)

/-- Every RFC 8446 certificate request is read without failure. -/
theorem readable_of {request : Bytes} (h : Tls13.IsCertificateRequest request) : ReadableRequest request := by
  obtain ⟨context, extensions, h1, h2, list, h3, h4, h5⟩ := h
  refine ⟨context, list, [], h1, h4, by rw [List.append_nil]; exact h5, ?_⟩
  unfold CertificateRequestExtensions.fromRequest
  rw [h3, requestLoop_of extensions _ [] h2 (Nat.le_refl _)]
  simp

/-- The groups of messages behind the contents of the records. -/
theorem groups_of : ∀ {groups : List (List Bytes)} {ms : List Msg}, groups.flatten = ms.map Msg.raw →
    ∃ gs : List (List Msg), gs.flatten = ms ∧ groups = gs.map fun g => g.map Msg.raw
  | [], ms, h => by
    have : ms = [] := by simpa using h.symm
    exact ⟨[], by rw [this]; rfl, rfl⟩
  | g :: gs, ms, h => by
    rw [List.flatten_cons] at h
    have h1 : (ms.take g.length).map Msg.raw = g := by rw [List.map_take, ← h, List.take_left' rfl]
    have h2 : (ms.drop g.length).map Msg.raw = gs.flatten := by rw [List.map_drop, ← h, List.drop_left' rfl]
    obtain ⟨gs', e1, e2⟩ := groups_of h2.symm
    exact ⟨ms.take g.length :: gs', by rw [List.flatten_cons, e1, List.take_append_drop], by rw [List.map_cons, h1, e2]⟩

/-- Every content of a protected flight is shorter than 2^16 bytes. -/
theorem content_le {a : Tls13.Seal} {key iv : Bytes} {seq : Nat} {contents records : List Bytes} (h : Tls13.ProtectedFlight a key iv seq contents records) :
    ∀ c ∈ contents, c.length < 2 ^ 16 := by
  induction h with
  | nil seq => simp
  | ccs seq cs c w ws h1 _ ih => exact ih
  | cons seq c cs w ws h1 _ ih =>
    intro c' hc
    rcases List.mem_cons.1 hc with rfl | hc
    · obtain ⟨_, _, _, hl, _⟩ := h1
      omega
    · exact ih c' hc

/-- The script of a conforming server. -/
theorem script_of {env : ClientEnv} {rng : List Bytes} {n : Int} {x : Params} {ch sh shRec messages : Bytes} {auth records : List Bytes}
    (hown : ∀ c, env.config.clientCert = some c → c.raw.length + 400 ≤ 2 ^ 24) (hc : ConformingServer env rng n x ch sh shRec messages auth records) :
    ∃ (S : Script) (cert : Certificate) (groups : List (List Msg)), S.Fine env x cert auth ∧ groups.flatten = S.msgs x ∧ (∀ g ∈ groups, g ≠ []) ∧
      messages = x.hellos ++ S.shown ++ x.sess.finished .server (x.hellos ++ S.shown) ∧
      Tls13.ProtectedFlight (aead x.c) (x.sess.key .server) (x.sess.iv .server) 0 (groups.map fun g => (g.map Msg.raw).flatten) records := by
  obtain ⟨ee, requests, cm, cv, cert, contents, ⟨cb, rfl, hp1⟩, ⟨vb, rfl, hp2⟩, hm, hml, ⟨gs, hg1, hg2, hg3⟩, hpf, hca, hrd⟩ := hc.flight
  obtain ⟨S, hS⟩ : ∃ S : Script, S = ⟨ee, requests, cb, vb⟩ := ⟨_, rfl⟩
  have hshown : x.hellos ++ opening ee requests ++ Tls13.handshakeMessage 11#8 cb ++ Tls13.handshakeMessage 15#8 vb = x.hellos ++ S.shown := by
    rw [hS]
    simp only [Script.shown, List.append_assoc]
    rfl
  have hraw : serverMessages x ee requests (Tls13.handshakeMessage 11#8 cb) (Tls13.handshakeMessage 15#8 vb) = (S.msgs x).map Msg.raw := by
    unfold serverMessages
    rw [hshown]
    simp only [Script.msgs, Script.last, List.map_cons, List.map_append, List.map_map, List.map_nil, finMsg_raw]
    rw [hS]
    rfl
  have hmsgs : messages = x.hellos ++ S.shown ++ x.sess.finished .server (x.hellos ++ S.shown) := by
    rw [hm]
    unfold serverMessages
    rw [hshown]
    generalize x.sess.finished .server (x.hellos ++ S.shown) = F
    rw [← hshown]
    simp [opening, List.append_assoc]
  rw [hraw] at hg1
  obtain ⟨groups, e1, e2⟩ := groups_of hg1
  have hcont : contents = groups.map fun g => (g.map Msg.raw).flatten := by
    rw [hg2, e2, List.map_map]
    rfl
  have hvl : vb.length < 2 ^ 16 := by
    have hmem : ((.certificateVerify, vb) : Msg) ∈ S.msgs x := by rw [hS]; simp [Script.msgs, Script.last]
    rw [← e1] at hmem
    obtain ⟨g, h1, h2⟩ := List.mem_flatten.1 hmem
    have h3 := content_le hpf (g.map Msg.raw).flatten (by rw [hcont]; exact List.mem_map.2 ⟨g, h1, rfl⟩)
    have h4 : (Msg.raw (.certificateVerify, vb)).length ≤ (g.map Msg.raw).flatten.length := by
      rw [List.length_flatten]
      exact List.single_le_sum (by simp) _ (List.mem_map.2 ⟨_, List.mem_map.2 ⟨_, h2, rfl⟩, rfl⟩)
    rw [Msg.raw_length] at h4
    simp only at h4
    omega
  refine ⟨S, cert, groups, ⟨by rw [hS]; exact hp1, ?_, by rw [hS]; exact hvl, ?_, ?_, by rw [hS]; exact fun b hb => readable_of (hrd b hb), hown⟩, e1, ?_, hmsgs, by rw [← hcont]; exact hpf⟩
  · rw [hS, ← List.append_assoc]
    exact hp2
  · have := congrArg List.length hmsgs
    rw [List.length_append] at this
    omega
  · rw [← hmsgs, hS]; exact hca
  · intro g hg
    have := hg3 (g.map Msg.raw) (by rw [e2]; exact List.mem_map.2 ⟨g, hg, rfl⟩)
    intro h
    rw [h] at this
    exact this rfl

end ClientProof

/-- C76: the client completes the handshake with every conforming server, however the server's records (with any further records, except alerts,
behind them) are grouped into reads. It sends its hello and then its flight, each message in a protected record: the answer to the certificate
request, if there was one, and its Finished message; the stream it hands out has the application traffic keys of the session. -/
theorem C76_client_completes (env : ClientEnv) (rng : List Bytes) (n : Int) (x : Params) (ch sh shRec messages : Bytes) (auth records tail incoming : List Bytes)
    (hown : ∀ c, env.config.clientCert = some c → c.raw.length + 400 ≤ 2 ^ 24)
    (hc : ConformingServer env rng n x ch sh shRec messages auth records) (htail : ∀ w ∈ tail, NoAlert w)
    (hd : Tls13.Pieces 2048 [] (shRec :: (records ++ tail)) incoming) :
    ∃ s h cwire p, ClientConnection.connect env rng ⟨incoming, [], []⟩ = (.ok s, h) ∧
      Tls13.Sent (aead x.c) (x.sess.key .client) (x.sess.iv .client) 0 (auth ++ [x.sess.finished .client (messages ++ auth.flatten)]) cwire ∧
      s.stream.written = Tls13.plainRecord 22#8 ch ++ cwire ∧
      s.protection = some p ∧ p.cipher = x.c ∧ p.isClient = true ∧
      RecProof.wKey p = x.appKey messages .client ∧ RecProof.rKey p = x.appKey messages .server := by
  obtain ⟨S, cert, groups, hf, hg, hne, hmsg, hpf⟩ := script_of hown hc
  obtain ⟨g, k0, k, hb, hs, hx, hgl, _, _, hfeed, hfin⟩ := client_feed hc.offered hc.answered hc.hello hf hg hne hpf htail
  have hall : ∀ w ∈ shRec :: (records ++ tail), NoAlert w := by
    intro w hw
    rcases List.mem_cons.1 hw with rfl | hw
    · exact ⟨22#8, sh, by decide, hc.hello⟩
    rcases List.mem_append.1 hw with hw | hw
    · obtain ⟨t, c, ht, hr⟩ := flight_whole hx hpf (by rw [List.length_map]; omega) w hw
      exact ⟨t, c, by rcases ht with rfl | rfl <;> decide, hr⟩
    · exact htail w hw
  obtain ⟨s, g1, g2, g3, _⟩ := connect_ready env hb hs (fun w hw => (hall w hw).whole) hd
    (fun a w b hab k' _ _ => (hall w (by rw [← hab]; simp)).not_alert) hfeed hfin.state
  obtain ⟨cwire, q1, q2⟩ := hfin.sent
  obtain ⟨p, p1, p2, p3, p4, p5⟩ := hfin.prot
  rw [← hmsg] at q1 p3 p4
  exact ⟨s, _, cwire, p, g1, q1, g3.trans q2, by rw [g2]; exact p1, p2, p5, p3, p4⟩

/-- C76, no deadlock: the client sends its hello before it reads anything. -/
theorem C76_client_hello_first (env : ClientEnv) (rng : List Bytes) (n : Int) (ch : Bytes) (ho : Offered env rng n ch) :
    ∃ h, ClientConnection.connect env rng ⟨[], [], []⟩ = (.err .brokenPipe, some h) ∧ h.stream.stream.written = Tls13.plainRecord 22#8 ch := by
  obtain ⟨g, rng', random, hb, hsend⟩ := hello_of ho
  obtain ⟨h, h1, h2⟩ := connect_waiting env hb hsend (records := []) (reads := []) (by simp) .done
    (fun a w b hab => by simp at hab) rfl (by simp [first])
  exact ⟨h, h1, h2.trans (by simp [out, TlsStream.new])⟩

/-- A certificate request with the extension signature_algorithms as its only one is one of the requests meant in `ConformingServer`. -/
theorem C76_request (context : Bytes) (schemes : List Nat) (h1 : context.length < 256) (h2 : schemes.length < 2 ^ 14) :
    Tls13.IsCertificateRequest (Tls13.certificateRequest context schemes) := by
  have hl : (schemes.map (beBytes 2)).flatten.length = schemes.length * 2 := by
    rw [List.length_flatten, List.map_map, List.map_congr_left (g := fun _ => 2) (by intro a _; simp [beBytes_length])]
    simp
  refine ⟨context, [(13, beBytes 2 (schemes.map (beBytes 2)).flatten.length ++ (schemes.map (beBytes 2)).flatten)], h1, ?_, _, rfl, ?_, ?_⟩
  · intro e he
    rw [List.mem_singleton.1 he]
    refine ⟨by simp, by simp, ?_⟩
    simp only [List.length_append, beBytes_length, hl]
    omega
  · simp only [List.map_cons, List.map_nil, List.flatten_cons, List.flatten_nil, List.append_nil, List.length_append, beBytes_length, hl]
    omega
  · simp only [List.map_cons, List.map_nil, List.flatten_cons, List.flatten_nil, List.append_nil]
    rfl

end ATLS
