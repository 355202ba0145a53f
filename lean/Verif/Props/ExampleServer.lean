import Verif.Model.ExampleServer
import Verif.Props.RfcClient
import Verif.Props.RfcClientExample
import Verif.Props.Transport
import Verif.Props.Crash
/-
C94: the example servers, which serve one connection after the other in one process.
-/
namespace ATLS
open ATLS.Model ATLS.Spec ATLS.KsProof ATLS.RecProof FlowProof RfcProof

/-- C94 in full: what happens on a connection depends on that connection alone. -/
def C94_statement : Prop :=
  ∀ (page : Bytes) (visits : List Visit) (i : Nat) (v : Visit), visits[i]? = some v → (serve page visits)[i]? = some (serveOne page v)

/-- C94 when no earlier connection crashed the process. Missing: the connections after a crash (`C94_false`). -/
theorem C94_isolated_partial (page : Bytes) : ∀ (visits : List Visit) (i : Nat) (v : Visit), visits[i]? = some v →
    (∀ (j : Nat) (w : Visit), j < i → visits[j]? = some w → serveOne page w ≠ .crashed) → (serve page visits)[i]? = some (serveOne page v)
  | [], i, v, h, _ => by simp at h
  | w :: visits, 0, v, h, _ => by
    obtain rfl : w = v := by simpa using h
    unfold serve
    cases hs : serveOne page w <;> simp
  | w :: visits, i + 1, v, h, hn => by
    have h0 := hn 0 w (by omega) (by simp)
    unfold serve
    cases hs : serveOne page w with
    | crashed => exact absurd hs h0
    | done sent =>
      simp only [List.getElem?_cons_succ]
      exact C94_isolated_partial page visits i v (by simpa using h) fun j u hj hu => hn (j + 1) u (by omega) (by simpa using hu)

/-- After a crash nobody is served: the results end with it. -/
theorem C94_ends (page : Bytes) (v : Visit) (hv : serveOne page v = .crashed) : ∀ before after : List Visit, (∀ w ∈ before, serveOne page w ≠ .crashed) →
    serve page (before ++ v :: after) = before.map (serveOne page) ++ [.crashed]
  | [], after, _ => by simp [serve, hv]
  | w :: before, after, h => by
    have ih := C94_ends page v hv before after fun u hu => h u (by simp [hu])
    have h0 := h w (by simp)
    rw [List.cons_append]
    unfold serve
    cases hs : serveOne page w with
    | crashed => exact absurd hs h0
    | done sent => simp [ih, hs]

/-- Five bytes on one connection end the process of every server. -/
theorem C94_five_bytes (page : Bytes) (env : ServerEnv) (rng reads : List Bytes) : serveOne page ⟨env, rng, ⟨[22, 3, 3, 0, 3] :: reads, [], []⟩⟩ = .crashed := by
  have h := C91_accept_crashes env rng reads [] []
  unfold serveOne
  rcases hr : ServerConnection.accept env rng ⟨[22, 3, 3, 0, 3] :: reads, [], []⟩ with ⟨r, k⟩
  rw [hr] at h
  obtain rfl : r = .panic := h
  simp only [hr]

/-- C94 is false: the connection after that one is not served. -/
theorem C94_false : ¬ C94_statement := by
  intro h
  have h1 := h helloWorld [⟨exampleServer none none, [], ⟨[[22, 3, 3, 0, 3]], [], []⟩⟩, ⟨exampleServer none none, [], ⟨[], [], []⟩⟩] 1 _ rfl
  unfold serve at h1
  rw [C94_five_bytes] at h1
  simp at h1

namespace ChannelProof

theorem after_accept {env : ServerEnv} {reads : List Bytes} {sock : Socket} {s : TlsStream} {h : ServerHandshake} (hc : env.config.cert.raw.length < 2 ^ 24)
    (ha : ServerConnection.accept env reads sock = (.ok s, h)) : ∃ code u own peer, Transport code u s own peer := by
  obtain ⟨r, context, auth, fin, tail, hacc, _⟩ := ServerProof.accepts_logged env reads sock s h hc ha
  obtain ⟨rng, hs, hello, answer, pk, share, body, e1, e2, e3, e4, e5, e6, e7, e8, e9, e10, e11, e12, e13, e14⟩ := hacc.answered
  obtain ⟨p, hp, hpc, hw, hr⟩ := hacc.keys
  obtain ⟨u, h1, h2, h3, h4⟩ := ChannelProof.transport e12 e13 hp hpc hw hr
  exact ⟨_, u, _, _, h4⟩

theorem readable {code : Nat} {u : Tls13.Suite} {s : TlsStream} {secret : Bytes} {seq : Nat} (h : ReadsFrom code u s secret seq) (hsec : secret.length = u.hash.out)
    (hseq : seq < 2 ^ 63) : ∃ cs p, s.protection = some p ∧ Readable cs p := by
  obtain ⟨hmem, p, cs, hp, hcs, hc, hk, hiv, hsq⟩ := h
  obtain ⟨cs', t, c, hlib⟩ := lib_suite hmem
  have e1 : cs' = cs := by have := hlib.parsed; rw [hcs] at this; exact (Res.ok.inj this).symm
  subst e1
  have ht := out_le t
  rw [hlib.hash, ← hsec] at ht
  have h2 := keyLen_le cs'
  refine ⟨cs', p, hp, hc, ⟨?_, ?_⟩, by omega⟩
  · rw [hk, ← hlib.hash, ← hlib.keyLength]
    exact (expandQ_eq t _ "key" [] _ (by omega) (by simp [String.length]) (by omega)).2
  · rw [hiv, ← hlib.hash]
    exact (expandQ_eq t _ "iv" [] 12 (by omega) (by simp [String.length]) (by omega)).2

theorem writes_read {code : Nat} {u : Tls13.Suite} {s : TlsStream} {secret : Bytes} {seq : Nat} (h : WritesTo code u s secret seq) (n : Nat) :
    WritesTo code u (s.tlsRead n).2 secret seq := by
  obtain ⟨hmem, p, cs, hp, hcs, hc, hk, hiv, hsq⟩ := h
  obtain ⟨_, _, q, h1, h2, h3⟩ := read_write s p hp n
  exact ⟨hmem, q, cs, h1, hcs, by rw [h3]; exact hc, by rw [h2]; exact hk, by rw [h2]; exact hiv, by rw [h2]; exact hsq⟩

theorem write_ne_panic {code : Nat} {u : Tls13.Suite} {s : TlsStream} {secret : Bytes} {seq : Nat} (h : WritesTo code u s secret seq) (hsec : secret.length = u.hash.out)
    (hseq : seq < 2 ^ 63) (data : Bytes) (hl : data.length ≤ 2 ^ 14) (h64 : data.length % 64 ≠ 63) : (s.tlsWrite data).1 ≠ .panic := by
  obtain ⟨w, h1, _⟩ := write_record (s := { s with stream := { s.stream with failures := [] } }) ⟨h.suite, h.prot⟩ hsec rfl hseq data hl fun _ => h64
  unfold TlsStream.tlsWrite at h1 ⊢
  simp only [] at h1
  cases hp : s.protection with
  | none => simp
  | some p =>
    rw [hp] at h1
    simp only [] at h1 ⊢
    rcases he : p.encrypt (Record.new .applicationData data) with ⟨r, q⟩
    rw [he] at h1
    cases r with
    | err e => simp
    | panic => simp at h1
    | ok b =>
      simp only []
      rcases s.stream.writeAll b with ⟨x, y⟩
      cases x <;> simp

end ChannelProof

/-- The requests the example servers do not survive: less than four bytes, or text before the last four bytes that is not UTF-8. -/
def BadRequest (request : Bytes) : Prop := request.length < 4 ∨ ¬ Utf8.IsText (request.take (request.length - 4))

/-- Exactly which connections end the process: those on which `accept` panics, those whose first read after the handshake crashes `tls_read` (C91) and those on which
a bad request was received. -/
theorem C94_crash_iff (page : Bytes) (hl : page.length ≤ 2 ^ 14) (h64 : page.length % 64 ≠ 63) (v : Visit) (hc : v.env.config.cert.raw.length < 2 ^ 24) :
    serveOne page v = .crashed ↔ (ServerConnection.accept v.env v.rng v.sock).1 = .panic ∨
      ∃ s h p, ServerConnection.accept v.env v.rng v.sock = (.ok s, h) ∧ s.protection = some p ∧
        ((∃ rx, nextRead s rx ∧ Crashing p 4096 rx) ∨ ∃ request s', s.tlsRead 4096 = (.ok request, s') ∧ BadRequest request) := by
  unfold serveOne
  rcases ha : ServerConnection.accept v.env v.rng v.sock with ⟨r, h⟩
  cases r with
  | panic => simp
  | err e => simp
  | ok s =>
    obtain ⟨code, u, own, peer, T⟩ := ChannelProof.after_accept hc ha
    obtain ⟨cs, p, hp, hread⟩ := ChannelProof.readable T.reads T.peerSize (by omega)
    have hr := C91_read_partial cs s p hp hread 4096
    have hw := ChannelProof.write_ne_panic (ChannelProof.writes_read T.writes 4096) T.ownSize (by omega) page hl h64
    simp only []
    have hiff : ∀ A : TlsStream → ServerHandshake → RecordPayloadProtection → Prop, ((Res.ok s : Res TlsError TlsStream) = .panic ∨ ∃ s' h' p', ((Res.ok s : Res TlsError TlsStream), h) = (.ok s', h') ∧ s'.protection = some p' ∧ A s' h' p') ↔ A s h p := by
      intro A
      constructor
      · rintro (h0 | ⟨s', h', p', e, hp', hA⟩)
        · cases h0
        · obtain ⟨e1, rfl⟩ := Prod.mk.inj e
          obtain rfl := Res.ok.inj e1
          rw [hp] at hp'
          obtain rfl := Option.some.inj hp'
          exact hA
      · exact fun hA => .inr ⟨s, h, p, rfl, hp, hA⟩
    rw [hiff fun s' _ p' => (∃ rx, nextRead s' rx ∧ Crashing p' 4096 rx) ∨ ∃ request s'', s'.tlsRead 4096 = (.ok request, s'') ∧ BadRequest request]
    rw [← hr]
    rcases ht : s.tlsRead 4096 with ⟨r, s1⟩
    rw [ht] at hw
    cases r with
    | panic => simp
    | err e => simp
    | ok request =>
      simp only [Prod.mk.injEq, Res.ok.injEq, reduceCtorEq, false_or]
      have hb : (∃ request' s', (request = request' ∧ s1 = s') ∧ BadRequest request') ↔ BadRequest request :=
        ⟨fun ⟨_, _, ⟨e1, _⟩, h⟩ => e1 ▸ h, fun h => ⟨_, _, ⟨rfl, rfl⟩, h⟩⟩
      rw [hb]
      have hu : utf8Valid (request.take (request.length - 4)) = true ↔ Utf8.IsText (request.take (request.length - 4)) := Utf8Proof.utf8Valid_iff _
      unfold BadRequest
      rw [← hu]
      by_cases h1 : request.length < 4
      · simp [h1]
      · simp only [h1, if_false, false_or]
        by_cases h2 : utf8Valid (request.take (request.length - 4)) = true
        · simp only [h2, not_true_eq_false, if_false]
          rcases hw' : s1.tlsWrite page with ⟨r, s2⟩
          simp only [hw'] at hw
          cases r with
          | panic => exact absurd rfl hw
          | ok _ => simp
          | err _ => simp
        · simp [h2]

/-- Both pages are within the bounds. -/
example : (helloWorld.length ≤ 2 ^ 14 ∧ helloWorld.length % 64 ≠ 63) ∧ helloAdmin.length ≤ 2 ^ 14 ∧ helloAdmin.length % 64 ≠ 63 := by decide +kernel

namespace ChannelProof

theorem protected_exists (u : Tls13.Suite) (key iv : Bytes) (seq : Nat) (type : Byte) (c : Bytes) (h : c.length + 17 < 2 ^ 16) :
    ∃ w, Tls13.Protected u.protect key iv seq type c w ∧ w.length = c.length + 22 := by
  obtain ⟨⟨ct, tag⟩, he⟩ : ∃ p, p = u.aead.encrypt key (Tls13.nonce iv seq) (c ++ [type] ++ zeros 0) (Tls13.protectedHeader (c.length + 1 + 0)) := ⟨_, rfl⟩
  have he' : u.protect key (Tls13.nonce iv seq) (c ++ [type] ++ zeros 0) (Tls13.protectedHeader (c.length + 1 + 0)) = some (ct, tag) := by
    unfold Tls13.Suite.protect
    rw [← he]
  obtain ⟨t1, t2⟩ := tag_eq he'
  refine ⟨_, ⟨ct, tag, 0, by omega, rfl, he'⟩, ?_⟩
  simp only [List.length_append, t1, t2, Tls13.protectedHeader, beBytes_length, List.length_cons, List.length_nil, zeros_length]
  omega

/-- A request in one record is answered with the page. -/
theorem serves {page : Bytes} (hl : page.length ≤ 2 ^ 14) (h64 : page.length % 64 ≠ 63) {v : Visit} {s : TlsStream} {h : ServerHandshake} {code : Nat} {u : Tls13.Suite}
    {own peer : Bytes} (ha : ServerConnection.accept v.env v.rng v.sock = (.ok s, h)) (T : Transport code u s own peer) {w request : Bytes} {rest : List Bytes}
    (hi : s.stream.incoming = w :: rest) (hf : s.stream.failures = [])
    (hw : Tls13.Protected u.protect (Tls13.writeKey u.hash peer u.keyLength) (Tls13.writeIv u.hash peer 12) 0 23#8 request w) (hwl : w.length ≤ 4096)
    (hw64 : code = 0x1303 → w.length % 64 ≠ 21) (hb : ¬ BadRequest request) :
    ∃ answer, serveOne page v = .done (s.stream.written ++ answer) ∧ answer.length = page.length + 22 ∧
      Tls13.Protected u.protect (Tls13.writeKey u.hash own u.keyLength) (Tls13.writeIv u.hash own 12) 0 23#8 page answer := by
  have hrl : request.length ≤ 4096 := by
    obtain ⟨ct, tag, pad, _, hwe, he⟩ := hw
    obtain ⟨t1, t2⟩ := tag_eq he
    rw [hwe] at hwl
    simp only [List.length_append, t1, List.length_singleton] at hwl
    omega
  obtain ⟨r1, _, _⟩ := read_record T.reads T.peerSize (by omega) (.data request) w rest 4096 hw hi hrl hwl hw64
  have hw' := writes_read T.writes 4096
  obtain ⟨hmem, p, cs, hp, _⟩ := T.writes
  obtain ⟨k1, k2, _⟩ := read_write s p hp 4096
  obtain ⟨answer, a1, _, _, a4, a5, a6⟩ := write_record hw' T.ownSize (by rw [k2, hf]) (by omega) page hl fun _ => h64
  refine ⟨answer, ?_, a5, a6⟩
  have hb1 : ¬ request.length < 4 := fun h => hb (.inl h)
  have hb2 : utf8Valid (request.take (request.length - 4)) = true := by
    by_contra hn
    exact hb (.inr fun ht => hn ((Utf8Proof.utf8Valid_iff _).2 ht))
  unfold serveOne
  rcases ht : s.tlsRead 4096 with ⟨r, s1⟩
  rw [ht] at r1 a1 a4 k1
  obtain rfl : r = .ok request := r1
  simp only [ha, ht, hb1, hb2, if_false, not_true_eq_false]
  rw [a1]
  simp only [] at a4 ⊢
  rw [a4, k1]

end ChannelProof

/-- The clients of RFC 8446 in the guard of C81 that send their request in one record after the handshake, of at most 4096 bytes (with ChaCha20-Poly1305 not of
length 21 modulo 64), get the page: the server's messages are those of RFC 8446's server and after them comes one record of RFC 8446 with the page. -/
theorem C94_serves_partial (page : Bytes) (hl : page.length ≤ 2 ^ 14) (h64 : page.length % 64 ≠ 63) (env : ServerEnv) (b1 b2 b3 : Bytes) (rest : List Bytes) (leaf : Tls13.Cert)
    (l1 : b1.length = 100) (l2 : b2.length = 100) (l3 : b3.length = 100) (hd : Deployed env leaf) (c : Tls13.Client) (chRec : Bytes) (hf : c.Follows)
    (hrec : Tls13.IsRecord 22#8 c.hello chRec) (hlen : chRec.length ≤ 4096) (hname : ∀ e n, env.config.serverName = some e → .serverName n ∈ c.helloMsg.exts → n = e) :
    ∃ (random key : Bytes) (n : Int) (rng1 rng2 : Rng) (context : Option Bytes) (code : Nat) (suite : Tls13.Suite),
      ((Rng.urandom (b1 :: b2 :: b3 :: rest)).bytes 32 : Res TlsError (Bytes × Rng)) = .ok (random, rng1) ∧
      (rng1.between 1 32 : Res TlsError (Int × Rng)) = .ok (n, rng2) ∧ key = scalarBytes n ∧ Drawn env rng2 context ∧
      code ∈ c.helloMsg.suites ∧ (code, suite) ∈ Tls13.suites ∧
      (Signs (fun v => 2 ^ 248 ≤ v) env.nonces env.config.privkey ((ownServer leaf key random code suite context 0 0).signed c) →
      ∃ r s : Nat, Ecdsa.sign env.nonces env.config.privkey (Sha2.sha256 ((ownServer leaf key random code suite context 0 0).signed c)) = .ok (some ⟨s, r⟩) ∧
        ∀ v, v = ownServer leaf key random code suite context r s → HandledHello c v → v.Follows c.hello c.helloMsg.sessionId c.share env.now ∧
        ∀ contents records last incoming request w more, c.Replies v env.now contents (records ++ [last]) → LetIn env c.proof.leaf →
          HandledAnswer env c v contents (records ++ [last]) → last.head? ≠ some 20#8 → Tls13.Delivers 4096 (chRec :: (records ++ [last])) incoming →
          Tls13.Sends v.suite ((c.session v).appSecret (c.transcript v) .client) 0 [.data request] [w] → w.length ≤ 4096 → (v.code = 0x1303 → w.length % 64 ≠ 21) →
          ¬ BadRequest request →
          ∃ flight answer, serveOne page ⟨env, b1 :: b2 :: b3 :: rest, ⟨incoming ++ w :: more, [], []⟩⟩ = .done (flight ++ answer) ∧ v.Wire c flight ∧
            Tls13.Sends v.suite ((c.session v).appSecret (c.transcript v) .server) 0 [.data page] [answer]) := by
  obtain ⟨random, key, n, rng1, rng2, context, code, suite, g1, g2, g3, g4, g5, g6, g7⟩ :=
    C81_server_partial env b1 b2 b3 rest leaf l1 l2 l3 hd c chRec hf hrec hlen hname
  refine ⟨random, key, n, rng1, rng2, context, code, suite, g1, g2, g3, g4, g5, g6, fun hs => ?_⟩
  obtain ⟨r, s, hsig, g8⟩ := g7 hs
  refine ⟨r, s, hsig, fun v hv hP => ?_⟩
  obtain ⟨k1, _, k3⟩ := g8 v hv hP
  refine ⟨k1, fun contents records last incoming request w more hr hin hR hlast hdel hw hwl hw64 hb => ?_⟩
  obtain ⟨_, _, _, _, _, k4⟩ := k3 contents (records ++ [last]) [] incoming hr hin hR (by simp) (by simpa using hdel)
  obtain ⟨str, h, a1, a2, a3, a4, a5⟩ := k4 records last (w :: more) rfl rfl hlast
  obtain ⟨_, _, e, hw', _⟩ := hw
  cases e
  obtain ⟨answer, e1, _, e2⟩ := ChannelProof.serves hl h64 (v := ⟨env, b1 :: b2 :: b3 :: rest, ⟨incoming ++ w :: more, [], []⟩⟩) a1 a3 a4 a5 hw' hwl hw64 hb
  exact ⟨_, answer, e1, a2, answer, [], rfl, e2, rfl⟩

/-- A concrete case: `C81_example`'s client of RFC 8446, without and with client authentication, gets the page of `server_https` for the request "GET /\r\n\r\n". -/
theorem C94_example (ask : Bool) : ∃ (x : Model.X509) (ks : Int) (r s r' s' : Nat) (contents records : List Bytes) (w flight answer : Bytes),
    (rfcClient [] r' s').Follows ∧ (rfcClient [] r' s').Replies (askingOwn ask r s) june2023 contents records ∧
    Tls13.Sends ⟨hashSha256, 16, .aesGcm⟩ (((rfcClient [] r' s').session (askingOwn ask r s)).appSecret ((rfcClient [] r' s').transcript (askingOwn ask r s)) .client) 0
      [.data (ascii "GET /\r\n\r\n")] [w] ∧
    serveOne helloWorld ⟨askingServer ask x [ks], [zeros 100, oneRead, zeros 100], ⟨(Tls13.plainRecord 22#8 (rfcClient [] r' s').hello :: records) ++ [w], [], []⟩⟩ =
      .done (flight ++ answer) ∧
    (askingOwn ask r s).Wire (rfcClient [] r' s') flight ∧
    Tls13.Sends ⟨hashSha256, 16, .aesGcm⟩ (((rfcClient [] r' s').session (askingOwn ask r s)).appSecret ((rfcClient [] r' s').transcript (askingOwn ask r s)) .server) 0
      [.data helloWorld] [answer] := by
  obtain ⟨x, ks, r, s, r', s', contents, records, _, _, g1, g2, _, g4⟩ := C81_example ask
  obtain ⟨secret, hsec⟩ : ∃ secret, secret = ((rfcClient [] r' s').session (askingOwn ask r s)).appSecret ((rfcClient [] r' s').transcript (askingOwn ask r s)) .client := ⟨_, rfl⟩
  obtain ⟨w, hw, hwl⟩ := ChannelProof.protected_exists ⟨hashSha256, 16, .aesGcm⟩ (Tls13.writeKey hashSha256 secret 16) (Tls13.writeIv hashSha256 secret 12) 0 23#8
    (ascii "GET /\r\n\r\n") (by decide)
  obtain ⟨str, h, a1, a2, a3, a4, a5⟩ := g4 [w]
  rw [← hsec] at a3
  obtain ⟨answer, e1, _, e2⟩ := ChannelProof.serves (page := helloWorld) (by decide +kernel) (by decide +kernel)
    (v := ⟨askingServer ask x [ks], [zeros 100, oneRead, zeros 100], ⟨(Tls13.plainRecord 22#8 (rfcClient [] r' s').hello :: records) ++ [w], [], []⟩⟩) a1 a3 a4 a5 hw
    (by rw [hwl]; decide) (fun h => by cases h) (by
      rintro (h | h)
      · revert h; decide
      · exact h ((Utf8Proof.utf8Valid_iff _).1 (by decide +kernel)))
  rw [hsec] at hw
  exact ⟨x, ks, r, s, r', s', contents, records, w, _, answer, g1, g2, ⟨w, [], rfl, hw, rfl⟩, e1, a2, answer, [], rfl, e2, rfl⟩

end ATLS
