import Verif.Props.Reason
import Verif.Props.RefusedExample
/-
Peers that C106 speaks of.
-/
namespace ATLS
open ATLS.Model ATLS.Spec FlowProof

namespace ReasonProof
open RecProof

/-- A record protected under the handshake keys. -/
theorem protects {x : Params} (hx : x.Ok) (side : Tls13.Side) (seq : Nat) (t : Byte) (c : Bytes) (hc : c.length < 2 ^ 15) :
    ∃ w, Tls13.Protected (aead x.c) (x.sess.key side) (x.sess.iv side) seq t c w ∧ w.length = c.length + 22 := by
  have hk := hsKey_sizes x side seq
  obtain ⟨ct, tag, he, hl1, hl2, _⟩ := C15_aead_round_trip x.cs x.c hx.cipher (x.hsKey side seq).key (Tls13.nonce (x.hsKey side seq).iv seq)
    (c ++ [t] ++ zeros 0) (Tls13.protectedHeader (c.length + 1 + 0)) (suiteKeys hk _) (by simp [zeros, Tls13.protectedHeader, beBytes_length]; omega)
  refine ⟨_, ⟨ct, tag, 0, by omega, rfl, ?_⟩, ?_⟩
  · unfold FlowProof.aead
    have he' : x.c.encrypt (x.sess.key side) (Tls13.nonce (x.sess.iv side) seq) (c ++ [t] ++ zeros 0) (Tls13.protectedHeader (c.length + 1 + 0)) = .ok (ct, tag) := he
    rw [he']
  · simp only [List.length_append, hl1, hl2, Tls13.protectedHeader, beBytes_length, List.length_cons, List.length_nil, zeros_length]
    omega

/-- The client of the repository's example in September 2026. -/
def lateClient : ClientEnv := { exampleClient (some (ascii "anothertls.local")) with now := 1790000000 }

/-- The certificate of the unit test, which expired in 2024, in a message. -/
def lateBody : Bytes := Tls13.certificateMessage [] [(Spec.X509.certificate ownTbs ownR ownS, [])]

theorem late : Certificate.fromHello 1790000000 lateBody = .err .certificateExpired := by
  have hf := X509Proof.fromRaw_certificate ownTbs (X509Proof.tbsOk X509Proof.own_wellFormed (by decide +kernel)) ownR ownS (by decide +kernel)
    (by decide +kernel) []
  rw [List.append_nil] at hf
  exact ((C70_read 1790000000 [] (by simp)).2 _ [] [] (by decide +kernel)).2.1 _ hf (by decide +kernel)

theorem inserted_mem {P : Bytes → Prop} {l l' : List Bytes} (h : Tls13.Inserted P l l') : ∀ w ∈ l, w ∈ l' := by
  induction h with
  | nil => simp
  | keep w l l' _ ih =>
    intro v hv
    rcases List.mem_cons.1 hv with rfl | hv
    · simp
    · exact List.mem_cons_of_mem _ (ih v hv)
  | add w l l' _ _ ih => exact fun v hv => List.mem_cons_of_mem _ (ih v hv)

end ReasonProof

open ReasonProof in
/-- A server whose certificate has expired, and which sends its messages in one record. -/
theorem C106_expired_example : ∃ (incoming : List Bytes) (h : ClientHandshake),
    (∃ n x ch sh shRec records, RefusedServer lateClient [zeros 100, zeros 100, zeros 100] n x ch sh shRec [0#8, 0#8] [] [(.certificate, lateBody)]
      [(.certificateVerify, [4#8, 3#8, 0#8, 0#8])] (zeros 32) .certificateExpired records ∧ incoming = shRec :: records) ∧
    ClientConnection.connect lateClient [zeros 100, zeros 100, zeros 100] ⟨incoming, [], []⟩ = (.err .certificateExpired, some h) := by
  obtain ⟨r, s, shRec, records, str, h, h1, h2, h3⟩ := C83_any_name (ascii "anothertls.local") (by decide)
  obtain ⟨env, henv⟩ : ∃ env, env = exampleClient (some (ascii "anothertls.local")) := ⟨_, rfl⟩
  have hlen := RfcProof.hello_length [] r s (sid := zeros 32) (by simp [zeros])
  obtain ⟨sh, hsh⟩ : ∃ sh, sh = (rfcServer [] r s).hello (zeros 32) := ⟨_, rfl⟩
  have hrec := h2.hello
  rw [← hsh] at hrec hlen
  rw [← henv] at h3
  have hrl : shRec.length = 127 := by
    obtain ⟨v1, v2, _, rfl⟩ := hrec
    simp only [List.length_append, beBytes_length, List.length_cons, List.length_nil]
    omega
  have hname : ∀ a, env.config.serverName = some a → a.length < 2 ^ 24 := by
    rw [henv]
    intro a ha
    cases ha
    decide
  obtain ⟨x, n, ch, ho, ha⟩ := AnswerProof.connect_first (record := shRec) (more := []) (later := records) hname (by simp) (by simp; omega) hrec h3
  have hchl : ch.length < 2 ^ 26 := by
    obtain ⟨_, _, _, random, sid, _, _, _, l1, l2, _, _, rfl⟩ := id ho
    have := ClientProof.offer_le random sid (publicShare n) env.config.serverName l1 l2 (publicShare_length n) hname
    simp only [Tls13.handshakeMessage, List.length_append, beBytes_length, List.length_cons, List.length_nil]
    omega
  have hxl : x.hellos.length < 2 ^ 27 := by
    obtain ⟨_, _, _, _, _, _, _, _, _, _, _, _, hh⟩ := id ha
    rw [hh, List.length_append]
    omega
  have hx : x.Ok := by
    obtain ⟨_, _, share, _, _, _, _, hg, hss, _, _, hci, _⟩ := id ha
    obtain ⟨_, hel⟩ := fromHandshake_of (x := x) (by omega) hg hss
    exact ⟨hci, by omega⟩
  obtain ⟨content, hcontent⟩ : ∃ content : Bytes, content = Tls13.handshakeMessage 8#8 [0#8, 0#8] ++ Tls13.handshakeMessage 11#8 lateBody ++
    Tls13.handshakeMessage 15#8 [4#8, 3#8, 0#8, 0#8] ++ Tls13.handshakeMessage 20#8 (zeros 32) := ⟨_, rfl⟩
  have hcl : content.length ≤ 2000 := by rw [hcontent]; decide +kernel
  have hbl : lateBody.length ≤ 2000 := by decide +kernel
  obtain ⟨w, hw, hwl⟩ := protects hx .server 0 22#8 content (by omega)
  have hr : RefusedServer lateClient [zeros 100, zeros 100, zeros 100] n x ch sh shRec [0#8, 0#8] [] [(.certificate, lateBody)]
      [(.certificateVerify, [4#8, 3#8, 0#8, 0#8])] (zeros 32) .certificateExpired [w] := by
    refine ⟨?_, hrec, ha, .certificate _ _ late, by simp, ⟨[content], ⟨[[Tls13.handshakeMessage 8#8 [0#8, 0#8], Tls13.handshakeMessage 11#8 lateBody,
      Tls13.handshakeMessage 15#8 [4#8, 3#8, 0#8, 0#8], Tls13.handshakeMessage 20#8 (zeros 32)]], by simp [ClientProof.Msg.raw, HandshakeType.code], ?_, by simp⟩,
      .cons _ _ _ _ _ hw (.nil _)⟩, ?_⟩
    · rw [henv] at ho; exact ho
    · rw [hcontent]; simp
    · simp only [opening, Tls13.handshakeMessage, ClientProof.Msg.raw, List.length_append, List.map_cons, List.map_nil, List.flatten_cons, List.flatten_nil, List.length_nil,
        beBytes_length, List.length_cons, zeros_length]
      omega
  obtain ⟨h, g, _⟩ := C106_client_reason _ _ _ _ _ _ _ _ _ _ _ _ _ _ [shRec, w] hr (by unfold NotAnswered; simp)
    (Tls13.delivers_single (by
      intro w' hwm
      simp only [List.mem_cons, List.not_mem_nil, or_false] at hwm
      rcases hwm with rfl | rfl <;> omega)).pieces
    (by
      intro c hc
      obtain rfl := Option.some.inj hc
      exact ⟨_, rfl⟩)
    (by
      intro c hc
      obtain rfl := Option.some.inj hc
      decide +kernel)
    (by rw [henv] at hname; exact hname)
    (by simp only [List.flatten_cons, List.flatten_nil, List.append_nil, List.length_append]; omega)
  exact ⟨_, h, ⟨n, x, ch, sh, shRec, [w], hr, rfl⟩, g⟩

/-- The library's own client, made to send a CertificateVerify message with something else than a signature, and the Finished message of RFC 8446 behind it. -/
theorem C106_forging_example : ∃ env reads r rng c cm cert vd records, ForgingClient env reads r rng c cm cert [4#8, 3#8, 0#8, 2#8, 0x31#8, 0#8] .badCertificate vd [] records ∧
    env.config.prngType = .urandom ∧ env.config.cert.raw.length + 200 ≤ 2 ^ 24 ∧ r.chRec.length ≤ 4096 ∧ Tls13.Delivers 4096 records records ∧
    Tls13.handshakeMessage 20#8 vd = r.x.sess.finished .client (r.transcript ++ cm ++ Tls13.handshakeMessage 15#8 [4#8, 3#8, 0#8, 2#8, 0x31#8, 0#8]) := by
  obtain ⟨-, ⟨ca, kc, ks, q, r, rng, auth, ws, cws, R⟩⟩ := PairProof.example_runs
  obtain ⟨m1, m2, cert, rfl, hpr, _⟩ := R.client.proof
  obtain ⟨ca', hs, c, rest, x, p1, p2, p3, p4, p5, p6, p7, p8, _⟩ := id hpr
  obtain ⟨cv, hcv⟩ : ∃ cv : Bytes, cv = Tls13.handshakeMessage 15#8 [4#8, 3#8, 0#8, 2#8, 0x31#8, 0#8] := ⟨_, rfl⟩
  obtain ⟨vd, hvd⟩ : ∃ vd, vd = Tls13.verifyData (rfcHash r.x.t) (r.x.sess.secret .client) ((rfcHash r.x.t).H (r.transcript ++ m1 ++ cv)) := ⟨_, rfl⟩
  have hfin : Tls13.handshakeMessage 20#8 vd = r.x.sess.finished .client (r.transcript ++ m1 ++ cv) := by rw [hvd]; rfl
  have hfl : (Tls13.handshakeMessage 20#8 vd ++ []).length ≤ 100 := by
    rw [hfin, List.append_nil, RfcProof.finished_length]
    cases r.x.t <;> decide
  obtain ⟨ws0, hins, w1, _, rfl, hw1, _⟩ := plain_of R.client.records
  have hw1m : w1 ∈ cws := ReasonProof.inserted_mem hins w1 (by simp)
  have hw1l := R.fromClient w1 (by simp [hw1m])
  obtain ⟨w2, hw2, hw2l⟩ := ReasonProof.protects R.ok .client 1 22#8 cv (by rw [hcv]; decide)
  obtain ⟨w3, hw3, hw3l⟩ := ReasonProof.protects R.ok .client 2 22#8 (Tls13.handshakeMessage 20#8 vd ++ []) (by omega)
  refine ⟨_, _, r, rng, c, m1, cert, vd, [w1, w2, w3], ⟨R.client.hello, R.client.answered, ?_, ?_, ?_, ?_, ?_⟩, rfl, ?_, R.fromClient _ (by simp), ?_, by rw [← hcv]; exact hfin⟩
  · rw [← p4]; exact R.client.drawn
  · rw [← p4]; exact R.client.flight
  · rw [← p4]; exact hpr
  · exact ⟨by decide, by decide, .inl (by decide)⟩
  · rw [← hcv]
    exact .cons _ _ _ _ _ hw1 (.cons _ _ _ _ _ hw2 (.cons _ _ _ _ _ hw3 (.nil _)))
  · show (Spec.X509.certificate ownTbs ownR ownS).length + 200 ≤ 2 ^ 24
    decide +kernel
  · refine Tls13.delivers_single fun w hw => ?_
    have : cv.length = 10 := by rw [hcv]; decide
    simp only [List.mem_cons, List.not_mem_nil, or_false] at hw
    rcases hw with rfl | rfl | rfl
    · exact hw1l
    · omega
    · omega

end ATLS
