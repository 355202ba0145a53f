import Verif.Props.RfcClient
import Verif.Props.RfcServerExample
/-
C81: a concrete client that follows RFC 8446 and with which the server completes the handshake, without and with client authentication; and a client
that follows RFC 8446 and is refused.
-/
namespace ATLS
open ATLS.Model ATLS.Spec FlowProof RfcProof

/-- A client with the repository's certificate and key that follows RFC 8446: the X25519 private key 256, the shares `first` before its X25519 share and a
P-256 share after it, an unknown extension, and the given signature. -/
def rfcClient (first : List (Nat × Bytes)) (r s : Nat) : Tls13.Client where
  key := scalarBytes 256
  helloMsg := ⟨zeros 32, zeros 32, [0x1301], [.other 0x2a2a [0#8], .keyShare (first ++ [(29, Tls13.x25519Public (scalarBytes 256)), (23, zeros 65)]),
    .supportedVersions [0x0304]]⟩
  proof := ⟨⟨ownTbs, ownR, ownS⟩, [], [], r, s⟩

/-- The example server, with the repository's certificate as client CA if it authenticates clients. -/
def askingServer (ask : Bool) (x : Model.X509) (nonces : List Int) : ServerEnv :=
  { exampleServer (if ask then some ⟨Spec.X509.certificate ownTbs ownR ownS, some x⟩ else none) none with nonces := nonces }

/-- What it chooses: the random value 0, the X25519 private key 257, TLS_AES_128_GCM_SHA256 and the context 0. -/
def askingOwn (ask : Bool) (r s : Nat) : Tls13.Server :=
  ownServer ⟨ownTbs, ownR, ownS⟩ (scalarBytes 257) (zeros 32) 0x1301 ⟨hashSha256, 16, .aesGcm⟩ (if ask then some (zeros 32) else none) r s

namespace RfcProof

theorem asking_deployed (ask : Bool) (x : Model.X509) (nonces : List Int) : Deployed (askingServer ask x nonces) ⟨ownTbs, ownR, ownS⟩ where
  prng := rfl
  raw := rfl
  size := by show (Spec.X509.certificate ownTbs ownR ownS).length ≤ 16000; decide +kernel
  wellFormed := X509Proof.own_wellFormed
  period := own_period
  curve := rfl
  scalar := by show ¬ (P256.n : Int) ∣ ownKey.secret; decide +kernel
  key := ⟨ownQ, ⟨by decide +kernel, by decide +kernel, rfl⟩, own_coords⟩

/-- The shares before the X25519 share in the two examples. -/
def FirstOk (first : List (Nat × Bytes)) : Prop := first = [] ∨ first = [(0x2a2a, [0#8])]

theorem client_lengths {first : List (Nat × Bytes)} (hf : FirstOk first) (r s : Nat) :
    ((rfcClient first r s).helloMsg.exts.map Tls13.ClientExt.bytes).flatten.length ≤ 200 ∧
    8 ≤ ((rfcClient first r s).helloMsg.exts.map Tls13.ClientExt.bytes).flatten.length ∧ (rfcClient first r s).hello.length ≤ 300 := by
  have hsh := public_length (scalarBytes_length 256)
  rcases hf with rfl | rfl <;>
  simp [rfcClient, Tls13.Client.hello, Tls13.handshakeMessage, Tls13.ClientHelloMsg.bytes, Tls13.ClientExt.bytes, Tls13.ClientExt.body, Tls13.share, Tls13.vec2,
    Tls13.u16s, beBytes_length, hsh, zeros]

theorem client_follows {first : List (Nat × Bytes)} (hf : FirstOk first) (r s : Nat) : (rfcClient first r s).Follows := by
  have hsh := public_length (scalarBytes_length 256)
  obtain ⟨l1, l2, _⟩ := client_lengths hf r s
  refine ⟨scalarBytes_length 256, ⟨rfl, by simp [rfcClient, zeros], by simp [rfcClient], ?_, l2, by omega⟩, ⟨_, List.mem_cons_self, by simp [rfcClient]⟩,
    ⟨_, rfl, by simp [rfcClient]⟩, ⟨_, rfl, by simp⟩, ?_⟩
  · intro e he
    simp only [rfcClient, List.mem_cons, List.not_mem_nil, or_false] at he
    rcases he with rfl | rfl | rfl
    · exact ⟨by decide, by decide, by decide, by decide⟩
    · intro p hp
      rcases hf with rfl | rfl <;> simp only [List.nil_append, List.cons_append, List.mem_cons, List.not_mem_nil, or_false] at hp
      · rcases hp with rfl | rfl
        · exact ⟨by decide, by simp only [hsh]; omega⟩
        · exact ⟨by decide, by decide⟩
      · rcases hp with rfl | rfl | rfl
        · exact ⟨by decide, by decide⟩
        · exact ⟨by decide, by simp only [hsh]; omega⟩
        · exact ⟨by decide, by decide⟩
    · exact ⟨by decide, by decide, by simp⟩
  · intro n hn
    simp [rfcClient] at hn

theorem client_record {first : List (Nat × Bytes)} (hf : FirstOk first) (r s : Nat) :
    Tls13.IsRecord 22#8 (rfcClient first r s).hello (Tls13.plainRecord 22#8 (rfcClient first r s).hello) ∧
    (Tls13.plainRecord 22#8 (rfcClient first r s).hello).length ≤ 400 := by
  obtain ⟨_, _, l⟩ := client_lengths hf r s
  refine ⟨⟨3#8, 3#8, by omega, rfl⟩, ?_⟩
  simp only [Tls13.plainRecord, List.length_append, beBytes_length, List.length_cons, List.length_nil]
  omega

/-- What the theorem says about the example. -/
theorem client_instance {S : Int → Prop} {P : Tls13.Client → Tls13.Server → Prop} {R : ServerEnv → Tls13.Client → Tls13.Server → List Bytes → List Bytes → Prop}
    (hC : C81_for S P R) (ask : Bool) (x : Model.X509) (nonces : List Int) {first : List (Nat × Bytes)} (hf : FirstOk first) (c : Tls13.Client) (r' s' : Nat)
    (hc : c = rfcClient first r' s') (hs : Signs S nonces ownKey ((askingOwn ask 0 0).signed c)) :
    ∃ r s : Nat, Ecdsa.sign nonces ownKey (Sha2.sha256 ((askingOwn ask 0 0).signed c)) = .ok (some ⟨s, r⟩) ∧
      ∀ v, v = askingOwn ask r s → P c v →
        (∃ h, ServerConnection.accept (askingServer ask x nonces) [zeros 100, oneRead, zeros 100] ⟨[Tls13.plainRecord 22#8 c.hello], [], []⟩ = (.err .brokenPipe, h)) ∧
        ∀ contents records, c.Replies v june2023 contents records → LetIn (askingServer ask x nonces) c.proof.leaf →
          R (askingServer ask x nonces) c v contents records →
          Tls13.Delivers 4096 (Tls13.plainRecord 22#8 c.hello :: (records ++ [])) (Tls13.plainRecord 22#8 c.hello :: records) →
          ∃ str h, ServerConnection.accept (askingServer ask x nonces) [zeros 100, oneRead, zeros 100] ⟨Tls13.plainRecord 22#8 c.hello :: records, [], []⟩ = (.ok str, h) ∧
            ∀ init last more, records = init ++ [last] → last.head? ≠ some 20#8 →
              ∃ str h, ServerConnection.accept (askingServer ask x nonces) [zeros 100, oneRead, zeros 100] ⟨(Tls13.plainRecord 22#8 c.hello :: records) ++ more, [], []⟩ = (.ok str, h) ∧
                v.Wire c str.stream.written ∧
                Transport v.code v.suite str ((c.session v).appSecret (c.transcript v) .server) ((c.session v).appSecret (c.transcript v) .client) ∧
                str.stream.incoming = more ∧ str.stream.failures = [] := by
  have hr := client_record hf r' s'
  rw [← hc] at hr
  obtain ⟨random, key, n, rng1, rng2, context, code, suite, e1, e2, e3, e4, e5, e6, e7⟩ := hC (askingServer ask x nonces) (zeros 100) oneRead (zeros 100) []
    ⟨ownTbs, ownR, ownS⟩ rfl (by decide) rfl (asking_deployed ask x nonces) c (Tls13.plainRecord 22#8 c.hello) (by rw [hc]; exact client_follows hf r' s') hr.1
    (by omega) (by intro e n he; cases ask <;> cases he)
  have f1 : ((Rng.urandom [zeros 100, oneRead, zeros 100]).bytes 32 : Res TlsError (Bytes × Rng)) = .ok (zeros 32, .urandom [oneRead, zeros 100]) := rfl
  rw [f1] at e1
  obtain ⟨rfl, rfl⟩ := Prod.mk.inj (Res.ok.inj e1)
  rw [example_between.2] at e2
  obtain ⟨rfl, rfl⟩ := Prod.mk.inj (Res.ok.inj e2)
  have hcode : code = 0x1301 := by rw [hc] at e5; simpa [rfcClient] using e5
  subst hcode
  have hsuite : suite = ⟨hashSha256, 16, .aesGcm⟩ := by simpa [Tls13.suites] using e6
  subst hsuite
  have hctx : context = if ask then some (zeros 32) else none := by
    cases ask with
    | false => exact e4
    | true =>
      obtain ⟨y, _, g1, g2⟩ := e4
      have f2 : ((Rng.urandom [zeros 100]).bytes 32 : Res TlsError (Bytes × Rng)) = .ok (zeros 32, .urandom []) := rfl
      rw [f2] at g1
      rw [g2, ← (Prod.mk.inj (Res.ok.inj g1)).1]
      rfl
  subst hctx
  subst e3
  obtain ⟨r, s, g1, g2⟩ := e7 hs
  refine ⟨r, s, g1, ?_⟩
  intro v hv hp
  obtain ⟨_, ⟨h, k1, _⟩, k2⟩ := g2 v hv hp
  refine ⟨⟨h, k1⟩, ?_⟩
  intro contents records q1 q2 q3 q4
  obtain ⟨str, h, q5, _, _, q6⟩ := k2 contents records [] _ q1 q2 q3 (by simp) q4
  exact ⟨str, h, q5, fun init last more e1 e2 => q6 init last more rfl e1 e2⟩

theorem flight_heads {a : Tls13.Seal} {key iv : Bytes} {seq : Nat} {contents records : List Bytes} (h : Tls13.ProtectedFlight a key iv seq contents records) :
    contents.length ≤ records.length ∧ (records.length = contents.length → ∀ w ∈ records, w.head? = some 23#8) := by
  induction h with
  | nil seq => simp
  | ccs seq contents c w ws h1 h2 ih =>
    simp only [List.length_cons]
    exact ⟨by omega, fun h => by omega⟩
  | cons seq c contents w ws h1 h2 ih =>
    simp only [List.length_cons]
    refine ⟨by omega, fun h v hv => ?_⟩
    rcases List.mem_cons.1 hv with rfl | hv
    · obtain ⟨ct, tag, n, _, rfl, _⟩ := h1
      simp [Tls13.protectedHeader]
    · exact ih.2 (by omega) v hv

theorem own_hash (ask : Bool) (r s : Nat) {first : List (Nat × Bytes)} (hf : FirstOk first) (r' s' : Nat) :
    (((rfcClient first r' s').session (askingOwn ask r s)).hellos ++ (askingOwn ask r s).opening.flatten).length ≤ 2000 := by
  have e1 := own_hello_length (leaf := ⟨ownTbs, ownR, ownS⟩) (code := 0x1301) (suite := ⟨hashSha256, 16, .aesGcm⟩)
    (context := if ask then some (zeros 32) else none) (r := r) (s := s) (scalarBytes_length 257) (show (zeros 32).length = 32 from rfl) (show (zeros 32).length ≤ 32 by decide)
  obtain ⟨_, _, l⟩ := client_lengths hf r' s'
  have e2 : (askingOwn ask r s).opening.flatten.length ≤ 1000 := by
    show (askingOwn ask 0 0).opening.flatten.length ≤ 1000
    cases ask <;> decide +kernel
  simp only [Tls13.Client.session, Tls13.Server.session, List.length_append]
  have e1 : ((askingOwn ask r s).hello (rfcClient first r' s').helloMsg.sessionId).length ≤ 200 := e1
  omega

theorem verify_short {content : Bytes} {r s : Nat} (h : Spec.Ecdsa.Accepts (P256.coords (ownKey.secret • P256.G)) r s (Spec.Ecdsa.hashInt (Sha2.sha256 content))) (leaf : Tls13.Cert) :
    (Tls13.Proof.verify ⟨leaf, [], [], r, s⟩).length ≤ 80 := by
  obtain ⟨_, _, _, _, r2, _, t2, _⟩ := h
  have hn256 := n_lt
  have h1 := sig_length (r := r) (s := s) (by omega) (by omega)
  have h2 := intLen_le (n := r) (by omega)
  have h3 := intLen_le (n := s) (by omega)
  simp only [Tls13.Proof.verify, Tls13.handshakeMessage, Tls13.certificateVerifyMessage, List.length_append, beBytes_length, List.length_singleton]
  omega

theorem sha_content {m : Bytes} (h : m.length < 2 ^ 50) (role : Tls13.Role) : (Tls13.verifyContent role (hashSha256.H m)).length < 2 ^ 50 := by
  have e : hashSha256.H m = Sha2.sha256 m := rfl
  have := sha_length (content := m) (by omega)
  simp only [Tls13.verifyContent, List.length_append, List.length_replicate, CertProof.context_length, List.length_singleton, e]
  omega

end RfcProof

/-- C81 is about something: with the repository's certificate and key on both ends, the server completes the handshake with a client that follows RFC
8446, without and with client authentication. -/
theorem C81_example (ask : Bool) : ∃ (x : Model.X509) (ks : Int) (r s r' s' : Nat) (contents records : List Bytes) (str : TlsStream) (h : _),
    (rfcClient [] r' s').Follows ∧ (rfcClient [] r' s').Replies (askingOwn ask r s) june2023 contents records ∧
    ServerConnection.accept (askingServer ask x [ks]) [zeros 100, oneRead, zeros 100]
      ⟨Tls13.plainRecord 22#8 (rfcClient [] r' s').hello :: records, [], []⟩ = (.ok str, h) ∧
    ∀ more, ∃ str h, ServerConnection.accept (askingServer ask x [ks]) [zeros 100, oneRead, zeros 100]
        ⟨(Tls13.plainRecord 22#8 (rfcClient [] r' s').hello :: records) ++ more, [], []⟩ = (.ok str, h) ∧ (askingOwn ask r s).Wire (rfcClient [] r' s') str.stream.written ∧
      Transport 0x1301 ⟨hashSha256, 16, .aesGcm⟩ str (((rfcClient [] r' s').session (askingOwn ask r s)).appSecret ((rfcClient [] r' s').transcript (askingOwn ask r s)) .server)
        (((rfcClient [] r' s').session (askingOwn ask r s)).appSecret ((rfcClient [] r' s').transcript (askingOwn ask r s)) .client) ∧
      str.stream.incoming = more ∧ str.stream.failures = [] := by
  obtain ⟨x, hx, hsigned⟩ := own_identity
  have hfirst : FirstOk [] := Or.inl rfl
  obtain ⟨ks, hs⟩ := PairProof.signs_of (key := ownKey) rfl (by decide +kernel) ((askingOwn ask 0 0).signed (rfcClient [] 0 0))
  obtain ⟨r, s, h1, _, h3, _, _⟩ := signed_rfc (key := ownKey) rfl (by decide +kernel) (sha_content (by have := own_hash ask 0 0 hfirst 0 0; omega) .server) hs
  obtain ⟨v, hv⟩ : ∃ v, v = askingOwn ask r s := ⟨_, rfl⟩
  have hvl := verify_short h3 ⟨ownTbs, ownR, ownS⟩
  have hopen : v.opening.flatten.length ≤ 1000 := by
    rw [hv]
    show (askingOwn ask 0 0).opening.flatten.length ≤ 1000
    cases ask <;> decide +kernel
  obtain ⟨cs, t, ci, hl⟩ := lib_suite (code := 0x1301) (u := ⟨hashSha256, 16, .aesGcm⟩) (by simp [Tls13.suites])
  have hfin : ∀ c side m, m.length < 2 ^ 50 → (Tls13.Session.finished (Tls13.Client.session c v) side m).length ≤ 52 := by
    intro c side m hm
    have e := session_eq (v := v) (ch := c.hello) (sid := c.helloMsg.sessionId) (share := c.share) (cs := cs) (t := t) (c := ci) (by rw [hv]; exact hl)
    have := finished_le ⟨t, cs, ci, X25519.x25519 v.key c.share, c.hello ++ v.hello c.helloMsg.sessionId⟩ side m (by omega)
    rw [e] at this
    exact this
  have hhellos : ((rfcClient [] 0 0).session v).hellos.length ≤ 2000 := by
    have := own_hash ask r s hfirst 0 0
    rw [← hv, List.length_append] at this
    omega
  have htl : ((rfcClient [] 0 0).transcript v).length ≤ 4000 := by
    have e : (rfcClient [] 0 0).transcript v = ((rfcClient [] 0 0).session v).hellos ++ (v.flight ((rfcClient [] 0 0).session v)).flatten := rfl
    have hvp : v.proof.verify.length ≤ 80 := by rw [hv]; exact hvl
    have := hfin (rfcClient [] 0 0) .server (((rfcClient [] 0 0).session v).hellos ++ (v.opening ++ [v.proof.verify]).flatten) (by
      simp only [List.flatten_append, List.length_append, List.flatten_cons, List.flatten_nil, List.append_nil]
      omega)
    rw [e]
    unfold Tls13.Server.flight
    rw [List.flatten_append, List.length_append, List.length_append, List.flatten_cons, List.flatten_cons, List.flatten_nil, List.append_nil, List.length_append]
    omega
  obtain ⟨cert, hcert⟩ : ∃ cert, cert = (rfcClient [] 0 0).proof.certificate (zeros 32) := ⟨_, rfl⟩
  have hcl : cert.length ≤ 1000 := by rw [hcert]; decide +kernel
  obtain ⟨kc, hk⟩ := PairProof.signs_of (key := ownKey) rfl (by decide +kernel) (Tls13.verifyContent .client (hashSha256.H ((rfcClient [] 0 0).transcript v ++ cert)))
  obtain ⟨r', s', _, _, k3, _, _⟩ := signed_rfc (key := ownKey) rfl (by decide +kernel) (sha_content (by rw [List.length_append]; omega) .client) hk
  have hcvl := verify_short k3 ⟨ownTbs, ownR, ownS⟩
  obtain ⟨c, hc⟩ : ∃ c, c = rfcClient [] r' s' := ⟨_, rfl⟩
  have hctl : (c.transcript v).length ≤ 4000 := by rw [hc]; exact htl
  obtain ⟨r1, s1, g1, g2⟩ := client_instance C81_server_partial ask x [ks] hfirst c r' s' hc (by rw [hc]; exact hs)
  have hrs : r1 = r ∧ s1 = s := by
    have h1' : Ecdsa.sign [ks] ownKey (Sha2.sha256 ((askingOwn ask 0 0).signed c)) = .ok (some ⟨s, r⟩) := by rw [hc]; exact h1
    have e := g1.symm.trans h1'
    have e := Option.some.inj (Res.ok.inj e)
    simp only [Signature.mk.injEq, Nat.cast_inj] at e
    exact ⟨e.2, e.1⟩
  rw [hrs.1, hrs.2] at g2
  have hans : ∀ m ∈ c.answer (v.requests.head?.map Tls13.requestContext), m.length ≤ 1000 := by
    intro m hm
    have hctx : v.requests.head?.map Tls13.requestContext = if ask then some (zeros 32) else none := by
      rw [hv]
      show (askingOwn ask 0 0).requests.head?.map Tls13.requestContext = _
      cases ask <;> decide
    rw [hctx] at hm
    cases ask with
    | false => cases hm
    | true =>
      have hm : m = c.proof.certificate (zeros 32) ∨ m = c.proof.verify := by simpa [Tls13.Client.answer] using hm
      rcases hm with rfl | rfl
      · rw [hc]; rw [hcert] at hcl; exact hcl
      · rw [hc]; exact le_trans hcvl (by decide)
  have hansl : (c.answer (v.requests.head?.map Tls13.requestContext)).flatten.length ≤ 2 * 1001 := by
    refine le_trans (flatten_le (n := 1001) fun m hm => Nat.lt_succ_of_le (hans m hm)) (Nat.mul_le_mul_right _ ?_)
    cases v.requests.head?.map Tls13.requestContext <;> simp [Tls13.Client.answer]
  have hmsgs : ∀ m ∈ c.flight v, m.length ≤ 1000 := by
    intro m hm
    rcases List.mem_append.1 hm with hm | hm
    · exact hans m hm
    · rw [List.mem_singleton.1 hm]
      exact le_trans (hfin c .client _ (by rw [List.length_append]; omega)) (by decide)
  obtain ⟨records, q1, q2, q3⟩ := flight_exists v.suite ((c.session v).key .client) ((c.session v).iv .client) (c.flight v) 0 (fun m hm => by have := hmsgs m hm; omega)
  have hrep : c.Replies v june2023 (c.flight v) records := by
    refine ⟨?_, coalesced_single _, q1⟩
    intro request hreq
    have : request = Tls13.certificateRequest (zeros 32) [0x0403] := by
      rw [hv] at hreq
      cases ask with
      | false => simp [askingOwn, ownServer] at hreq
      | true => simpa [askingOwn, ownServer] using hreq
    rw [this, hc]
    refine ⟨X509Proof.own_wellFormed, own_period, ?_, ownQ, ⟨by decide +kernel, by decide +kernel, rfl⟩, ?_⟩
    · show (([(Tls13.Cert.der ⟨ownTbs, ownR, ownS⟩, ([] : Bytes))]).map Tls13.certificateEntry).flatten.length < 2 ^ 24
      decide +kernel
    · rw [own_coords, hcert] at k3
      have e : Tls13.requestContext (Tls13.certificateRequest (zeros 32) [0x0403]) = zeros 32 := by decide
      rw [e, hv]
      rw [hv] at k3
      exact k3
  have hrl := (client_record hfirst r' s').2
  rw [← hc] at hrl
  have hhh : HandledHello c v := by
    refine ⟨Or.inr (by rw [hc]; rfl), ?_, ?_, ?_, (fun h => by rw [hv] at h; cases h)⟩
    · intro l hl
      rw [hc] at hl ⊢
      simp only [rfcClient, List.mem_cons, List.not_mem_nil, or_false, reduceCtorEq, Tls13.ClientExt.keyShare.injEq, false_or] at hl
      refine ⟨[(23, zeros 65)], hl, ?_⟩
      intro p hp
      rw [List.mem_singleton.1 hp]
      exact ⟨by decide, by decide⟩
    · rw [hc]
      show (Tls13.x25519Public (scalarBytes 256)).getD 0 0 ≠ 0
      rw [← publicShare_eq]
      exact example_shares.1
    · rw [hc, hv]
      show (X25519.x25519 (scalarBytes 257) (Tls13.x25519Public (scalarBytes 256))).getD 0 0 ≠ 0
      rw [← publicShare_eq]
      exact example_secret
  have hin : LetIn (askingServer ask x [ks]) c.proof.leaf := by
    intro ca hca
    cases ask with
    | false => cases hca
    | true =>
      have hca : ca = ⟨Spec.X509.certificate ownTbs ownR ownS, some x⟩ := (Option.some.inj hca).symm
      refine ⟨⟨ownTbs, ownR, ownS⟩, x, ownQ, hca, hx.parsed, X509Proof.own_wellFormed, ⟨by decide +kernel, by decide +kernel, rfl⟩, ?_, ?_, ?_⟩
      · show (Spec.X509.certificate ownTbs ownR ownS).length < 2 ^ 16
        decide +kernel
      · rw [hc]
        refine (C68_signed ownTbs ownR ownS ownQ.1 ownQ.2 X509Proof.own_wellFormed (by decide +kernel) (by decide +kernel)
          ⟨Spec.X509.certificate ownTbs ownR ownS, some x⟩ x rfl ?_ ⟨Spec.X509.certificate ownTbs ownR ownS, some x⟩ ?_).1 hsigned
        · obtain ⟨pk, e1, e2⟩ := hx.public_
          rw [e2, ← e1]
          decide +kernel
        · unfold Certificate.fromRawX509
          rw [hx.parsed]
          rfl
      · intro f y hf; cases hf
  have hha : HandledAnswer (askingServer ask x [ks]) c v (c.flight v) records := by
    refine ⟨rfl, (fun h => by rw [hv] at h; cases h), fun _ => ?_, fun _ => ?_⟩
    · rw [hc]
      show GoodDates ⟨ownTbs, ownR, ownS⟩ june2023
      exact ⟨by decide, by decide, Or.inr (Or.inr (by decide +kernel))⟩
    · rw [hc]
      show (Spec.X509.certificate ownTbs ownR ownS).length < 2 ^ 16 ∧ 256 ≤ ownTbs.body.length
      exact ⟨by decide +kernel, by decide +kernel⟩
  have hsplit : ∃ init last, records = init ++ [last] ∧ last.head? ≠ some 20#8 := by
    have hne : records ≠ [] := by
      intro e
      rw [e] at q3
      simp [Tls13.Client.flight] at q3
    refine ⟨_, _, (List.dropLast_append_getLast hne).symm, ?_⟩
    rw [(flight_heads q1).2 q3 _ (List.getLast_mem hne)]
    decide
  obtain ⟨str, h, g4, g5⟩ := (g2 v hv hhh).2 (c.flight v) records hrep hin hha (by
    rw [List.append_nil]
    refine Tls13.delivers_single ?_
    intro w hw
    rcases List.mem_cons.1 hw with rfl | hw
    · omega
    · obtain ⟨m, e1, e2⟩ := q2 w hw
      have := hmsgs m e1
      omega)
  obtain ⟨contents, hcontents⟩ : ∃ contents, contents = c.flight v := ⟨_, rfl⟩
  rw [← hcontents] at hrep
  obtain ⟨init, last, e1, e2⟩ := hsplit
  have g6 := fun more => g5 init last more e1 e2
  rw [hc] at g4 hrep
  rw [hv] at hrep
  rw [hc, hv] at g6
  exact ⟨x, ks, r, s, r', s', contents, records, str, h, client_follows hfirst r' s', hrep, g4, g6⟩

namespace RfcProof
open ServerHandshake

/-- A ClientHello with an illegal parameter ends the handshake. -/
theorem accept_refused (env : ServerEnv) (reads : List Bytes) {c : Tls13.Client} {w : Bytes} (hl : c.helloMsg.bytes.length < 2 ^ 24)
    (hr : Tls13.IsRecord 22#8 c.hello w) (hw : w.length ≤ 4096) (he : Model.ClientHello.fromRaw c.helloMsg.bytes = .err .illegalParameter) :
    (ServerConnection.accept env reads ⟨[w], [], []⟩).1 = .err .illegalParameter := by
  obtain ⟨v1, v2, hl2, hw2⟩ := hr
  have h1 := RecProof.fromRaw_header .handshake v1 v2 c.hello [] hl2
  rw [List.append_nil] at h1
  have hw3 : w = [RecordType.handshake.code, v1, v2, BitVec.ofNat 8 (c.hello.length / 256), BitVec.ofNat 8 c.hello.length] ++ c.hello := by
    rw [hw2, RecProof.beBytes2]
    rfl
  rw [← hw3] at h1
  have hne : w ≠ [] := by rw [hw3]; simp
  have h2 := fromRaw_message .clientHello c.helloMsg.bytes [] hl
  rw [List.append_nil] at h2
  have h3 : ∀ k : ServerHandshake, k.state = .clientHello → recordsLoop env w.length w k = (.err .illegalParameter, k) := by
    intro k hk
    obtain ⟨n, hn⟩ : ∃ n, w.length = n + 1 := ⟨w.length - 1, by have := List.length_pos_iff.2 hne; omega⟩
    rw [hn]
    unfold recordsLoop
    rw [if_neg hne, Step.bind_lift_ok h1]
    refine Step.bind_of_err ?_
    unfold handleRecord
    rw [Step.bind_get, hk]
    simp only []
    rw [if_neg (by decide)]
    unfold handleClientHello
    refine (Step.bind_lift_ok h2 _ k).trans ?_
    rw [if_neg (fun h => h rfl)]
    refine Step.bind_of_err ?_
    rw [Step.lift_eq, he]
  have h4 : doHandshake env (ServerHandshake.new env (TlsStream.new ⟨[w], [], []⟩) reads) =
      (.err .illegalParameter, ServerHandshake.new env (TlsStream.new ⟨[], [], []⟩) reads) := by
    unfold doHandshake readLoop
    rw [Step.bind_get, if_neg (by show ¬ ServerHsState.clientHello = .ready; decide)]
    have e : onStream (fun s => s.tcpRead 4096) (ServerHandshake.new env (TlsStream.new ⟨[w], [], []⟩) reads) =
        (.ok w, ServerHandshake.new env (TlsStream.new ⟨[], [], []⟩) reads) := by
      unfold onStream TlsStream.tcpRead
      simp only [ServerHandshake.new, TlsStream.new, List.take_of_length_le hw, List.drop_of_length_le hw, if_neg hne]
      rfl
    rw [Step.bind_of_ok e]
    exact Step.bind_of_err (h3 _ rfl)
  unfold ServerConnection.accept doHandshakeWithError
  rw [h4]
  rfl

end RfcProof

/-- C81 is false as stated: a client that offers a group the library does not know (a GREASE value of RFC 8701) is refused. -/
theorem C81_false : ¬ C81_statement := by
  intro hC
  obtain ⟨x, _⟩ := own_identity
  have hfirst : FirstOk [(0x2a2a, [0#8])] := Or.inr rfl
  obtain ⟨ks, hs⟩ := PairProof.signs_of (key := ownKey) rfl (by decide +kernel) ((askingOwn false 0 0).signed (rfcClient [(0x2a2a, [0#8])] 0 0))
  obtain ⟨c, hc⟩ : ∃ c, c = rfcClient [(0x2a2a, [0#8])] 0 0 := ⟨_, rfl⟩
  obtain ⟨r, s, _, g2⟩ := client_instance hC false x [ks] hfirst c 0 0 hc (by
    rw [hc]
    obtain ⟨h1, sig, h2, _⟩ := hs
    exact ⟨h1, sig, h2, trivial, trivial⟩)
  obtain ⟨⟨h, hacc⟩, _⟩ := g2 _ rfl trivial
  have hl := (client_lengths hfirst 0 0).2.2
  have hr := client_record hfirst 0 0
  have hfol := client_follows hfirst 0 0
  rw [← hc] at hl hr hfol
  have := accept_refused (askingServer false x [ks]) [zeros 100, oneRead, zeros 100] (c := c) ?_ hr.1 (by omega) ?_
  · rw [hacc] at this
    cases this
  · simp only [Tls13.Client.hello, Tls13.handshakeMessage, List.length_append] at hl
    omega
  · rw [HelloProof.client_fromRaw _ hfol.hello (Or.inr (by rw [hc]; rfl)), hc]
    rfl

end ATLS
