import Verif.Proof.Utf8
import Verif.Props.RfcServer
/-
C81: the server completes the handshake with every client that follows RFC 8446. Unlike in C75, the client is described by `Spec.Tls13.Client`, and the
server's own messages by `Spec.Tls13.Server`, without any function of the library.
-/
namespace ATLS
open ATLS.Model ATLS.Spec FlowProof RfcProof

/-- The certificate and key of the server: the configured certificate is the DER encoding of `leaf`, which is valid at the present time and certifies
the configured P-256 key. -/
structure Deployed (env : ServerEnv) (leaf : Tls13.Cert) : Prop where
  prng : env.config.prngType = .urandom
  raw : env.config.cert.raw = leaf.der
  size : leaf.der.length ≤ 16000
  wellFormed : leaf.tbs.WellFormed
  period : leaf.InPeriod env.now
  curve : env.config.privkey.curve = .secp256r1
  scalar : ¬ (P256.n : Int) ∣ env.config.privkey.secret
  key : ∃ Q : Nat × Nat, leaf.Certifies Q ∧ P256.coords (env.config.privkey.secret • P256.G) = ((Q.1 : Int), (Q.2 : Int))

/-- The client is one the server should let in: without a client CA, everybody; else the client's certificate is signed with the key of the CA's
certificate and the custom function, if there is one, accepts it. -/
def LetIn (env : ServerEnv) (leaf : Tls13.Cert) : Prop :=
  ∀ ca, env.config.clientCertCa = some ca → ∃ (caCert : Tls13.Cert) (x : X509) (Q : Nat × Nat), ca = ⟨caCert.der, some x⟩ ∧
    Model.X509.fromRaw caCert.der = .ok x ∧ caCert.tbs.WellFormed ∧ caCert.Certifies Q ∧ caCert.der.length < 2 ^ 16 ∧ leaf.SignedBy Q ∧
    ∀ f y, env.config.clientCertCustomVerifyFn = some f → Model.X509.fromRaw leaf.der = .ok y → f y = true

/-- The server as a party of RFC 8446, given its certificate and what it draws and chooses. -/
def ownServer (leaf : Tls13.Cert) (key random : Bytes) (code : Nat) (suite : Tls13.Suite) (context : Option Bytes) (r s : Nat) : Tls13.Server where
  key := key
  random := random
  code := code
  suite := suite
  helloExtensions := [.keyShare (29, Tls13.x25519Public key), .supportedVersions 0x0304]
  extensions := [0#8, 0#8]
  requests := context.toList.map fun c => Tls13.certificateRequest c [0x0403]
  proof := ⟨leaf, [], [], r, s⟩

/-- What the server signs: the content of RFC 8446 4.4.3 for the transcript up to its Certificate message. -/
def Spec.Tls13.Server.signed (v : Tls13.Server) (c : Tls13.Client) : Bytes :=
  Tls13.verifyContent .server (v.suite.hash.H ((c.session v).hellos ++ v.opening.flatten))

/-- The records of the server up to the client's answer: ServerHello, change_cipher_spec if the client has a session id, and the protected flight. -/
def Spec.Tls13.Server.Wire (v : Tls13.Server) (c : Tls13.Client) (wire : Bytes) : Prop :=
  ∃ swire, wire = Tls13.plainRecord 22#8 (v.hello c.helloMsg.sessionId) ++
      (if c.helloMsg.sessionId = [] then [] else Tls13.plainRecord 20#8 [1#8]) ++ swire ∧
    Tls13.Sent v.suite.protect ((c.session v).key .server) ((c.session v).iv .server) 0 (v.flight (c.session v)) swire

/-- C81 for the signatures satisfying `S`, the hellos satisfying `P` and the answers satisfying `R`: with three reads of 100 bytes from the random source
and a certificate for its key, the server draws a random value, a private key and (with a client CA) a context; to every ClientHello of RFC 8446 (in a
record of at most 4096 bytes) it chooses an offered suite; if its nonces suffice to sign, it is a server that follows RFC 8446: it sends the messages of that
server before it reads anything else; and with every such client that ends the handshake as RFC 8446 prescribes and that it should let in, however the
records (and further records, except alerts) are grouped into reads of at most 4096 bytes, it completes the handshake, with the application traffic keys.
It leaves what arrives in later reads to the application, if the last record of the client's flight is not a change_cipher_spec record. -/
def C81_for (S : Int → Prop) (P : Tls13.Client → Tls13.Server → Prop) (R : ServerEnv → Tls13.Client → Tls13.Server → List Bytes → List Bytes → Prop) : Prop :=
  ∀ (env : ServerEnv) (b1 b2 b3 : Bytes) (rest : List Bytes) (leaf : Tls13.Cert), b1.length = 100 → b2.length = 100 → b3.length = 100 → Deployed env leaf →
    ∀ (c : Tls13.Client) (chRec : Bytes), c.Follows → Tls13.IsRecord 22#8 c.hello chRec → chRec.length ≤ 4096 →
    (∀ e n, env.config.serverName = some e → .serverName n ∈ c.helloMsg.exts → n = e) →
    ∃ (random key : Bytes) (n : Int) (rng1 rng2 : Rng) (context : Option Bytes) (code : Nat) (suite : Tls13.Suite),
      ((Rng.urandom (b1 :: b2 :: b3 :: rest)).bytes 32 : Res TlsError (Bytes × Rng)) = .ok (random, rng1) ∧
      (rng1.between 1 32 : Res TlsError (Int × Rng)) = .ok (n, rng2) ∧ key = scalarBytes n ∧ Drawn env rng2 context ∧
      code ∈ c.helloMsg.suites ∧ (code, suite) ∈ Tls13.suites ∧
      (Signs S env.nonces env.config.privkey ((ownServer leaf key random code suite context 0 0).signed c) →
      ∃ r s : Nat, Ecdsa.sign env.nonces env.config.privkey (Sha2.sha256 ((ownServer leaf key random code suite context 0 0).signed c)) = .ok (some ⟨s, r⟩) ∧
        ∀ v, v = ownServer leaf key random code suite context r s → P c v →
        v.Follows c.hello c.helloMsg.sessionId c.share env.now ∧
        (∃ h, ServerConnection.accept env (b1 :: b2 :: b3 :: rest) ⟨[chRec], [], []⟩ = (.err .brokenPipe, h) ∧ v.Wire c h.stream.stream.written) ∧
        ∀ contents records tail incoming, c.Replies v env.now contents records → LetIn env c.proof.leaf → R env c v contents records →
          (∀ w ∈ tail, NoAlert w) → Tls13.Delivers 4096 (chRec :: (records ++ tail)) incoming →
          ∃ str h, ServerConnection.accept env (b1 :: b2 :: b3 :: rest) ⟨incoming, [], []⟩ = (.ok str, h) ∧ v.Wire c str.stream.written ∧
            Transport v.code v.suite str ((c.session v).appSecret (c.transcript v) .server) ((c.session v).appSecret (c.transcript v) .client) ∧
            ∀ init last more, tail = [] → records = init ++ [last] → last.head? ≠ some 20#8 →
              ∃ str h, ServerConnection.accept env (b1 :: b2 :: b3 :: rest) ⟨incoming ++ more, [], []⟩ = (.ok str, h) ∧ v.Wire c str.stream.written ∧
                Transport v.code v.suite str ((c.session v).appSecret (c.transcript v) .server) ((c.session v).appSecret (c.transcript v) .client) ∧
                str.stream.incoming = more ∧ str.stream.failures = [])

/-- The guard of `C81_server_partial` for the hellos: the session id has 0 or 32 bytes; the X25519 share is the first one, the other shares are of the
RFC's groups and have at least 4 bytes; neither the client's public value nor the secret starts with a zero byte; with ChaCha20-Poly1305 the server's
Certificate message does not have the length 63 modulo 64. -/
structure HandledHello (c : Tls13.Client) (v : Tls13.Server) : Prop where
  sessionId : c.helloMsg.sessionId.length = 0 ∨ c.helloMsg.sessionId.length = 32
  shares : ∀ l, .keyShare l ∈ c.helloMsg.exts → ∃ others, l = (29, c.share) :: others ∧
    ∀ s ∈ others, s.1 ∈ [23, 24, 25, 29, 30, 256, 257, 258, 259, 260] ∧ 4 ≤ s.2.length
  publicValue : c.share.getD 0 0 ≠ 0
  secret : (X25519.x25519 v.key c.share).getD 0 0 ≠ 0
  own : v.code = 0x1303 → (v.proof.certificate []).length % 64 ≠ 63

/-- The guard of `C81_server_partial` for the answers: each message is in its own record; with ChaCha20-Poly1305 no record has a plaintext whose length is a
multiple of 64; the client's certificate, if asked for, is shorter than 64 KiB, its signed part has at least 256 bytes, its dates are from 1970 on and it is not the
last day of a certificate that ends after February of a leap year. -/
structure HandledAnswer (env : ServerEnv) (c : Tls13.Client) (v : Tls13.Server) (contents records : List Bytes) : Prop where
  separate : contents = c.flight v
  records : v.code = 0x1303 → ∀ w ∈ records, w.length % 64 ≠ 21
  dates : v.requests ≠ [] → GoodDates c.proof.leaf env.now
  size : v.requests ≠ [] → c.proof.leaf.der.length < 2 ^ 16 ∧ 256 ≤ c.proof.leaf.tbs.body.length

/-- C81 in full. -/
def C81_statement : Prop := C81_for (fun _ => True) (fun _ _ => True) (fun _ _ _ _ _ => True)

namespace RfcProof
open ServerHello

theorem split_filter {α : Type} {p : α → Bool} {l : List α} {a : α} (h : l.filter p = [a]) :
    ∃ pre post, l = pre ++ a :: post ∧ (∀ x ∈ pre, ¬ p x = true) ∧ ∀ x ∈ post, ¬ p x = true := by
  obtain ⟨pre, post, h1, h2, _, h4⟩ := List.filter_eq_cons_iff.1 h
  exact ⟨pre, post, h1, h2, List.filter_eq_nil_iff.1 h4⟩

/-- Extensions that do not change the negotiation. -/
theorem fold_inert {name : Option Bytes} : ∀ {es : List Tls13.ClientExt}, (∀ e ∈ es, ¬ (e.typ == 51) = true) → (∀ l, .supportedVersions l ∈ es → 0x0304 ∈ l) →
    (∀ e n, name = some e → .serverName n ∈ es → n = e) → ∀ s, ((es.map Tls13.seen).flatten).foldlM (onExtension name) s = .ok s
  | [], _, _, _, s => rfl
  | e :: es, h1, h2, h3, s => by
    rw [List.map_cons, List.flatten_cons, List.foldlM_append]
    have ih := fold_inert (name := name) (es := es) (fun x hx => h1 x (by simp [hx])) (fun l hl => h2 l (by simp [hl])) (fun e n he hn => h3 e n he (by simp [hn]))
    have h0 : (Tls13.seen e).foldlM (onExtension name) s = .ok s := by
      cases e with
      | serverName n =>
        simp only [Tls13.seen, List.foldlM_cons, List.foldlM_nil, onExtension]
        cases name with
        | none => rfl
        | some e =>
          simp only
          rw [if_neg (by rw [h3 e n rfl (by simp)]; simp)]
          rfl
      | supportedVersions l =>
        simp only [Tls13.seen, List.foldlM_cons, List.foldlM_nil, onExtension]
        rw [if_pos (by simpa using h2 l (by simp))]
        rfl
      | keyShare l => exact absurd rfl (h1 (.keyShare l) (by simp))
      | other t b => rfl
    rw [h0, Res.ok_bind, ih]

theorem no_share {es : List Tls13.ClientExt} (h : ∀ e ∈ es, ¬ (e.typ == 51) = true) : ∀ k, ClientExtension.keyShare k ∉ (es.map Tls13.seen).flatten := by
  intro k hk
  obtain ⟨l, hl, hk⟩ := List.mem_flatten.1 hk
  obtain ⟨e, he, rfl⟩ := List.mem_map.1 hl
  cases e with
  | serverName n => simp [Tls13.seen] at hk
  | supportedVersions l => simp [Tls13.seen] at hk
  | keyShare l => exact h _ he rfl
  | other t b => simp [Tls13.seen] at hk

/-- The suite the server chooses for the offered ones. -/
theorem choose_suite {suites : List Nat} (h : ∃ u ∈ Tls13.suites, u.1 ∈ suites) :
    ∃ cs u t c, selectSuite (suites.filterMap fun c => Tls13.suiteCodes.lookup c) none = some cs ∧ cs.asU16 ∈ suites ∧ (cs.asU16, u) ∈ Tls13.suites ∧
      LibSuite cs.asU16 u cs t c := by
  obtain ⟨known, hk⟩ : ∃ known, known = suites.filterMap fun c => Tls13.suiteCodes.lookup c := ⟨_, rfl⟩
  have hmem : ∀ cs, cs ∈ known → cs.asU16 ∈ suites := by
    intro cs h
    rw [hk] at h
    obtain ⟨code, h1, h2⟩ := List.mem_filterMap.1 h
    have : cs.asU16 = code := by
      simp only [Tls13.suiteCodes, List.lookup, beq_eq_decide] at h2
      split at h2
      · cases h2; rename_i e; simp at e; exact e.symm
      split at h2
      · cases h2; rename_i e; simp at e; exact e.symm
      split at h2
      · cases h2; rename_i e; simp at e; exact e.symm
      split at h2
      · cases h2; rename_i e; simp at e; exact e.symm
      · cases h2
    rw [this]
    exact h1
  obtain ⟨cs, hcs⟩ : ∃ cs, selectSuite known none = some cs := by
    rw [← Option.ne_none_iff_exists']
    intro hn
    have hn := (NegProof.select_none known).1 hn
    obtain ⟨⟨code, u⟩, h1, h2⟩ := h
    have : ∃ cs, Tls13.suiteCodes.lookup code = some cs ∧ cs ≠ .emptyRenegotiationInfoScsv := by
      simp only [Tls13.suites, List.mem_cons, List.not_mem_nil, or_false, Prod.mk.injEq] at h1
      rcases h1 with ⟨rfl, _⟩ | ⟨rfl, _⟩ | ⟨rfl, _⟩ <;> exact ⟨_, rfl, by simp⟩
    obtain ⟨cs, g1, g2⟩ := this
    exact g2 (hn cs (by rw [hk]; exact List.mem_filterMap.2 ⟨code, h2, g1⟩))
  rcases NegProof.select_mem known none cs hcs with ⟨h1, h2⟩ | h1
  · obtain ⟨u, t, c, g1, g2⟩ := suite_lib (cs := cs) (by cases cs <;> simp at h2 ⊢)
    exact ⟨cs, u, t, c, by rw [← hk]; exact hcs, hmem cs h1, g1, g2⟩
  · cases h1

/-- What the server makes of a ClientHello that follows the RFC. -/
theorem hello_read {c : Tls13.Client} (hf : c.Follows) (hsid : c.helloMsg.sessionId.length = 0 ∨ c.helloMsg.sessionId.length = 32)
    (hsh : ∀ l, .keyShare l ∈ c.helloMsg.exts → ∃ others, l = (29, c.share) :: others ∧
      ∀ s ∈ others, s.1 ∈ [23, 24, 25, 29, 30, 256, 257, 258, 259, 260] ∧ 4 ≤ s.2.length)
    {name : Option Bytes} (hname : ∀ e n, name = some e → .serverName n ∈ c.helloMsg.exts → n = e) {cs : CipherSuite}
    (hcs : selectSuite (c.helloMsg.suites.filterMap fun c => Tls13.suiteCodes.lookup c) none = some cs)
    {rng rng1 rng2 : Rng} {random : Bytes} {n : Int} (h1 : (rng.bytes 32 : Res TlsError (Bytes × Rng)) = .ok (random, rng1)) (hr : random.length = 32)
    (h2 : (rng1.between 1 32 : Res TlsError (Int × Rng)) = .ok (n, rng2)) :
    ∃ hello, ClientHello.fromRaw c.helloMsg.bytes = .ok hello ∧ hello.getPublicKeyShare = some ⟨.x25519, c.share⟩ ∧
      hello.legacySessionIdEcho = (if c.helloMsg.sessionId = [] then none else some c.helloMsg.sessionId) ∧
      ServerHello.fromClientHello hello rng name = .ok (⟨random, hello.legacySessionIdEcho, cs,
        [.keyShare ⟨[⟨.x25519, (publicShare n).reverse⟩]⟩, .supportedVersions true]⟩, ⟨.curve25519, n⟩, rng2) := by
  have hpub := public_length hf.key
  have hread := C64_understood_partial c.helloMsg hf.hello (fun n hn => (Utf8Proof.utf8Valid_iff n).2 (hf.names n hn)) ⟨hsid, by
    intro l hl
    obtain ⟨others, rfl, ho⟩ := hsh l hl
    refine ⟨by simp, ?_⟩
    intro s hs
    rcases List.mem_cons.1 hs with rfl | hs
    · exact ⟨⟨.x25519, by simp [Tls13.knownGroups]⟩, by show 4 ≤ c.share.length; unfold Tls13.Client.share; omega⟩
    · obtain ⟨g, g4⟩ := ho s hs
      refine ⟨?_, g4⟩
      simp only [List.mem_cons, List.not_mem_nil, or_false] at g
      simp only [Tls13.knownGroups, List.mem_cons, List.not_mem_nil, or_false, Prod.mk.injEq]
      rcases g with g | g | g | g | g | g | g | g | g | g <;> rw [g] <;> simp⟩
  obtain ⟨l, hl, hmem⟩ := hf.keyShare
  obtain ⟨pre, post, he, hpre, hpost⟩ := split_filter hl
  obtain ⟨others, rfl, ho⟩ := hsh l (by rw [he]; simp)
  obtain ⟨vs, hvs, hv⟩ := hf.versions
  have hver : ∀ l, Tls13.ClientExt.supportedVersions l ∈ c.helloMsg.exts → 0x0304 ∈ l := by
    intro l hl
    have : Tls13.ClientExt.supportedVersions l ∈ c.helloMsg.exts.filter (fun e => e.typ == 43) := List.mem_filter.2 ⟨hl, rfl⟩
    rw [hvs] at this
    simp only [List.mem_cons, List.not_mem_nil, or_false, Tls13.ClientExt.supportedVersions.injEq] at this
    rw [this]
    exact hv
  refine ⟨_, hread, ?_, rfl, ?_⟩
  · refine NegProof.publicKeyShare_of _ ((pre.map Tls13.seen).flatten) ((post.map Tls13.seen).flatten) _ (Tls13.usableShares others) (no_share hpre) ?_
    simp only [he, List.map_append, List.map_cons, List.flatten_append, List.flatten_cons, List.append_assoc]
    rfl
  · refine (NegProof.same_fold _ [.keyShare ⟨[⟨.x25519, c.share⟩]⟩] rng name ?_).trans
      (NegProof.accept_of _ cs hcs name c.share [] (fun _ => rfl) h1 hr h2)
    intro s
    simp only [he, List.map_append, List.map_cons, List.flatten_append, List.flatten_cons]
    rw [List.foldlM_append, fold_inert hpre (fun l hl => hver l (by rw [he]; simp [hl])) (fun e n h1 h2 => hname e n h1 (by rw [he]; simp [h2])), Res.ok_bind,
      List.foldlM_append]
    have e1 : (Tls13.seen (.keyShare ((29, c.share) :: others))).foldlM (onExtension name) s =
        ([ClientExtension.keyShare ⟨[⟨.x25519, c.share⟩]⟩]).foldlM (onExtension name) s := by
      have : Tls13.seen (.keyShare ((29, c.share) :: others)) = [.keyShare ⟨⟨.x25519, c.share⟩ :: Tls13.usableShares others⟩] := rfl
      rw [this]
      simp only [List.foldlM_cons, List.foldlM_nil, onExtension, NegProof.loop_x25519]
    rw [e1]
    cases hx : ([ClientExtension.keyShare ⟨[⟨.x25519, c.share⟩]⟩]).foldlM (onExtension name) s with
    | ok s' =>
      rw [Res.ok_bind]
      exact fold_inert hpost (fun l hl => hver l (by rw [he]; simp [hl])) (fun e n h1 h2 => hname e n h1 (by rw [he]; simp [h2])) s'
    | err e => rfl
    | panic => rfl

theorem digest_le (t : HashType) {m : Bytes} (h : m.length < 2 ^ 53) : ((rfcHash t).H m).length ≤ 64 := by
  have e1 := CertProof.finalize_le (ts t m)
  rw [ts_finalize t _ h] at e1
  exact e1

theorem content_le (role : Tls13.Role) (digest : Bytes) : (Tls13.verifyContent role digest).length ≤ 200 + digest.length := by
  simp only [Tls13.verifyContent, List.length_append, List.length_replicate, CertProof.context_length, List.length_singleton]
  omega

theorem own_hello_length {leaf : Tls13.Cert} {key random : Bytes} {code : Nat} {suite : Tls13.Suite} {context : Option Bytes} {r s : Nat} {sid : Bytes}
    (hk : key.length = 32) (hr : random.length = 32) (hs : sid.length ≤ 32) : ((ownServer leaf key random code suite context r s).hello sid).length ≤ 200 := by
  have := public_length hk
  simp only [Tls13.Server.hello, Tls13.handshakeMessage, Tls13.ServerHelloMsg.bytes, Tls13.Server.helloMsg, ownServer, List.length_append, List.length_cons,
    List.length_nil, beBytes_length, Tls13.vec2, List.map_cons, List.map_nil, List.flatten_cons, List.flatten_nil, Tls13.ServerExt.bytes, Tls13.ServerExt.body,
    Tls13.share]
  omega

theorem request_length {context : Bytes} (h : context.length = 32) : (Tls13.handshakeMessage 13#8 (Tls13.certificateRequest context [0x0403])).length = 47 := by
  simp [Tls13.handshakeMessage, Tls13.certificateRequest, beBytes_length, h]

theorem own_opening_length {leaf : Tls13.Cert} {key random : Bytes} {code : Nat} {suite : Tls13.Suite} {context : Option Bytes} {r s : Nat}
    (hl : leaf.der.length ≤ 16000) (hc : ∀ x, context = some x → x.length = 32) :
    (ownServer leaf key random code suite context r s).opening.flatten.length ≤ 17000 := by
  have e1 : (Tls13.Proof.certificate ⟨leaf, [], [], r, s⟩ []).length = 13 + leaf.der.length := own_length [] leaf.der
  simp only [Tls13.Server.opening, ownServer, List.flatten_append, List.length_append, List.flatten_cons, List.flatten_nil, List.append_nil, e1]
  cases context with
  | none => simp [Tls13.handshakeMessage, beBytes_length]; omega
  | some x =>
    have := request_length (hc x rfl)
    simp only [Option.toList_some, List.map_cons, List.map_nil, List.flatten_cons, List.flatten_nil, List.append_nil, this]
    simp [Tls13.handshakeMessage, beBytes_length]
    omega

end RfcProof

/-- C81, proved part: under `HandledHello` and `HandledAnswer`, and if the numbers of the server's signature are at least 2^248. -/
theorem C81_server_partial : C81_for (fun v => 2 ^ 248 ≤ v) HandledHello HandledAnswer := by
  intro env b1 b2 b3 rest leaf l1 l2 l3 hd c chRec hf hrec hlen hname
  have hr := PairProof.bytes_total l1 (b2 :: b3 :: rest)
  obtain ⟨n, hn⟩ := PairProof.between_total l2 (b3 :: rest)
  have hc3 := PairProof.bytes_total l3 rest
  have hrange := NegProof.between_range hn
  obtain ⟨random, hrandom⟩ : ∃ random, random = b1.take 32 := ⟨_, rfl⟩
  have hrl : random.length = 32 := by rw [hrandom, List.length_take]; omega
  rw [← hrandom] at hr
  obtain ⟨cs, u, t, ci, hcs, hoff, hsuite, hl⟩ := choose_suite hf.suites
  obtain ⟨context, hctx, hctxl⟩ : ∃ context, Drawn env (.urandom (b3 :: rest)) context ∧ ∀ x, context = some x → x.length = 32 := by
    unfold Drawn
    cases env.config.clientCertCa with
    | none => exact ⟨none, rfl, by simp⟩
    | some ca => exact ⟨some (b3.take 32), ⟨_, _, hc3, rfl⟩, by intro x hx; cases hx; rw [List.length_take]; omega⟩
  refine ⟨random, scalarBytes n, n, _, _, context, cs.asU16, u, hr, hn, rfl, hctx, hoff, hsuite, ?_⟩
  intro hsig
  have hchl : c.hello.length ≤ 4096 := by
    obtain ⟨_, _, _, he⟩ := hrec
    rw [he] at hlen
    simp only [List.length_append] at hlen
    omega
  have hkl := scalarBytes_length n
  have hsidl := hf.hello.sessionId
  obtain ⟨sid, hsid⟩ : ∃ sid, sid = c.helloMsg.sessionId := ⟨_, rfl⟩
  rw [← hsid] at hsidl
  have hsl : ∀ r s, ((c.session (ownServer leaf (scalarBytes n) random cs.asU16 u context r s)).hellos ++
      (ownServer leaf (scalarBytes n) random cs.asU16 u context r s).opening.flatten).length ≤ 30000 := by
    intro r s
    have e1 := own_hello_length (leaf := leaf) (code := cs.asU16) (suite := u) (context := context) (r := r) (s := s) hkl hrl hsidl
    have e2 := own_opening_length (key := scalarBytes n) (random := random) (code := cs.asU16) (suite := u) (r := r) (s := s) hd.size hctxl
    simp only [Tls13.Client.session, Tls13.Server.session, ← hsid, List.length_append]
    omega
  obtain ⟨r, s, s1, s2, s3, s4, s5⟩ := signed_rfc hd.curve hd.scalar (by
    have e1 := digest_le t (m := (c.session (ownServer leaf (scalarBytes n) random cs.asU16 u context 0 0)).hellos ++
      (ownServer leaf (scalarBytes n) random cs.asU16 u context 0 0).opening.flatten) (by have := hsl 0 0; omega)
    rw [hl.hash] at e1
    have e2 := content_le .server (u.hash.H ((c.session (ownServer leaf (scalarBytes n) random cs.asU16 u context 0 0)).hellos ++
      (ownServer leaf (scalarBytes n) random cs.asU16 u context 0 0).opening.flatten))
    show (Tls13.verifyContent .server (u.hash.H _)).length < _
    omega) hsig
  refine ⟨r, s, s1, ?_⟩
  intro v hv hp
  have hsl := hsl r s
  have hcontent : (ownServer leaf (scalarBytes n) random cs.asU16 u context 0 0).signed c =
      Tls13.verifyContent .server (u.hash.H ((c.session v).hellos ++ v.opening.flatten)) := by rw [hv]; rfl
  rw [hcontent] at s1 s3
  rw [← hv] at hsl
  have hhello : (v.hello sid).length ≤ 200 := by rw [hv]; exact own_hello_length hkl hrl hsidl
  have hvk : v.key = scalarBytes n := by rw [hv]; rfl
  have hvc : v.code = cs.asU16 := by rw [hv]; rfl
  have hvs : v.suite = u := by rw [hv]; rfl
  have hvr : v.requests = context.toList.map fun c => Tls13.certificateRequest c [0x0403] := by rw [hv]; rfl
  have hvp : v.proof = ⟨leaf, [], [], r, s⟩ := by rw [hv]; rfl
  have hve : v.extensions = [0#8, 0#8] := by rw [hv]; rfl
  have hvh : v.helloMsg sid = ⟨random, sid, cs.asU16, [.keyShare (29, Tls13.x25519Public (scalarBytes n)), .supportedVersions 0x0304]⟩ := by rw [hv]; rfl
  have hpub := public_length hkl
  have hcode : cs.asU16 < 65536 := by cases cs <;> decide
  have hcml : (v.proof.certificate []).length = 13 + leaf.der.length := by rw [hvp]; exact own_length [] leaf.der
  obtain ⟨Q, hQ, hco⟩ := hd.key
  have hfol : v.Follows c.hello sid c.share env.now := by
    refine ⟨by rw [hvk]; exact hkl, ?_, by rw [hvc, hvs]; exact hsuite, by rw [hv]; rfl, by rw [hv]; rfl, ?_, ?_⟩
    · rw [hvh]
      refine ⟨hrl, hsidl, hcode, ?_, ?_⟩
      · intro e he
        simp only [List.mem_cons, List.not_mem_nil, or_false] at he
        rcases he with rfl | rfl
        · exact ⟨by simp, by simp only [hpub]; omega⟩
        · show (0x0304 : Nat) < 65536
          decide
      · simp [Tls13.ServerExt.bytes, Tls13.ServerExt.body, Tls13.share, Tls13.vec2, beBytes_length, hpub]
    · rw [hvr]
      refine ⟨by cases context <;> simp, ?_⟩
      intro b hb
      obtain ⟨x, hx, rfl⟩ := List.mem_map.1 hb
      exact C76_request x _ (by have := hctxl x (by simpa using hx); omega) (by simp)
    · rw [hvp]
      refine ⟨hd.wellFormed, hd.period, ?_, Q, hQ, ?_⟩
      · have := hd.size
        simp [Tls13.certificateEntry, beBytes_length]
        omega
      · rw [hvs, ← hco]
        have : (v.session c.hello sid c.share).hellos = (c.session v).hellos := by rw [hsid]; rfl
        rw [this]
        exact s3
  obtain ⟨x, hx⟩ : ∃ x : Params, x = ⟨t, cs, ci, X25519.x25519 v.key c.share, c.hello ++ v.hello sid⟩ := ⟨_, rfl⟩
  have hlv : LibSuite v.code v.suite cs t ci := by rw [hvc, hvs]; exact hl
  have hxs : x.sess = c.session v := by rw [hx, Tls13.Client.session, ← hsid]; exact session_eq hlv
  have hxh : x.hellos = (c.session v).hellos := by rw [hx, Tls13.Client.session, ← hsid]; rfl
  obtain ⟨hello, a1, a2, a3, a4⟩ := hello_read hf hp.sessionId hp.shares hname hcs hr hrl hn
  rw [← hsid] at a3
  obtain ⟨ccs, hccs⟩ : ∃ ccs, ccs = if sid = [] then ([] : Bytes) else Tls13.plainRecord 20#8 [1#8] := ⟨_, rfl⟩
  have hans : HelloAnsweredBy env (b1 :: b2 :: b3 :: rest) x c.hello (v.hello sid) ccs (.urandom (b3 :: rest)) := by
    obtain ⟨wire, w1, w2, _⟩ := C36_server_hello random hello.legacySessionIdEcho cs [(publicShare n).reverse] hrl (by
      intro a ha
      rw [a3] at ha
      split_ifs at ha with h0
      cases ha
      rcases hp.sessionId with h | h
      · rw [← hsid] at h
        exact absurd (List.length_eq_zero_iff.1 h) h0
      · rw [hsid]
        exact h) (by intro a ha; rw [List.mem_singleton.1 ha, List.length_reverse]; exact publicShare_length n) (by simp)
    have hbl : c.helloMsg.bytes.length < 2 ^ 24 := by
      have := hchl
      simp only [Tls13.Client.hello, Tls13.handshakeMessage, List.length_append, beBytes_length, List.length_singleton] at this
      omega
    have hraw := fromRaw_message .clientHello c.helloMsg.bytes [] hbl
    rw [List.append_nil] at hraw
    refine ⟨_, hello, _, _, _, wire, hraw, rfl, a1, a4, w1, ?_, a2, rfl, ?_, ?_, ?_, ?_, ?_, ?_⟩
    · have : wire = (v.helloMsg sid).bytes := by
        rw [w2, hvh, a3]
        have h0 : ((if sid = [] then none else some sid : Option Bytes).getD []) = sid := by split_ifs with h <;> simp [h]
        rw [h0]
        simp only [List.map_cons, List.map_nil, List.reverse_reverse, List.singleton_append, publicShare_eq]
      rw [this]
      rfl
    · rw [hx]
      have hdh : X25519.x25519 v.key c.share = X25519.x25519 c.key (publicShare n) := by
        rw [hvk, publicShare_eq]
        exact dh hkl hf.key
      simp only [hdh]
      exact secret_rfc (by omega) hrange.2 hf.key hp.publicValue (by rw [← hdh]; exact hp.secret)
    · rw [hccs, a3]
      split_ifs <;> simp_all
    · rw [hx]
    · rw [hx]; exact hl.tshash
    · rw [hx]; exact hl.cipher
    · rw [hx]
  have hopen : v.opening = [encryptedExtensions] ++ v.requests.map (Tls13.handshakeMessage 13#8) ++ [certificateMsg env.config.cert] := by
    unfold Tls13.Server.opening certificateMsg
    rw [hve, hvp, hd.raw]
    rfl
  have hflight : ServerFlight env x context (v.flight (c.session v)) := by
    refine ⟨v.requests.map (Tls13.handshakeMessage 13#8), v.proof.verify, ?_, ?_, ?_⟩
    · unfold Requested
      unfold Drawn at hctx
      rw [hvr]
      cases hca : env.config.clientCertCa with
      | none => rw [hca] at hctx; exact ⟨hctx, by rw [hctx]; rfl⟩
      | some ca =>
        rw [hca] at hctx
        obtain ⟨y, _, _, hy⟩ := hctx
        exact ⟨y, hctxl y hy, hy, by rw [hy]; rfl⟩
    · refine ⟨_, _, ?_, s2, by rw [hvp]; rfl⟩
      rw [← hopen, hxs, hxh]
      have : (c.session v).hash = u.hash := by rw [← hvs]; rfl
      rw [this]
      exact s1
    · rw [hxs, hxh]
      unfold Tls13.Server.flight
      rw [hopen]
      simp only [List.append_assoc, List.cons_append, List.nil_append]
  have hcertl : env.config.cert.raw.length + 200 ≤ 2 ^ 24 := by
    rw [hd.raw]
    have := hd.size
    omega
  have hvl : 78 ≤ v.proof.verify.length ∧ v.proof.verify.length ≤ 80 := by
    obtain ⟨_, _, _, _, r2, _, t2, _⟩ := id s3
    have hn256 := n_lt
    rw [hvp]
    exact verify_length (r := r) (s := s) (by omega) (by omega) s4 s5
  have hmem : ∀ m ∈ v.flight (c.session v), m.length < 2 ^ 20 ∧ (v.code = 0x1303 → m.length % 64 ≠ 63) := by
    intro m hm
    have hm : m ∈ v.opening ∨ m = v.proof.verify ∨ m = (c.session v).finished .server ((c.session v).hellos ++ (v.opening ++ [v.proof.verify]).flatten) := by
      simpa only [Tls13.Server.flight, List.mem_append, List.mem_cons, List.not_mem_nil, or_false] using hm
    rcases hm with hm | rfl | rfl
    on_goal 1 =>
      simp only [Tls13.Server.opening, List.mem_append, List.mem_cons, List.not_mem_nil, or_false, List.mem_map] at hm
      rcases hm with (rfl | ⟨b, hb, rfl⟩) | rfl
    · rw [hve]
      simp [Tls13.handshakeMessage, beBytes_length]
    · rw [hvr] at hb
      obtain ⟨y, hy, rfl⟩ := List.mem_map.1 hb
      rw [request_length (hctxl y (by simpa using hy))]
      exact ⟨by norm_num, fun _ => by norm_num⟩
    · exact ⟨by have := hd.size; omega, hp.own⟩
    · exact ⟨by omega, fun _ => by omega⟩
    · have := finished_le x .server ((c.session v).hellos ++ (v.opening ++ [v.proof.verify]).flatten) (by
        simp only [List.flatten_append, List.length_append, List.flatten_cons, List.flatten_nil, List.append_nil] at hsl ⊢
        omega)
      rw [hxs] at this
      exact ⟨by omega, fun _ => by omega⟩
  have hsent : ∀ swire, Tls13.Sent (aead x.c) (x.sess.key .server) (x.sess.iv .server) 0 (v.flight (c.session v)) swire →
      Tls13.Sent v.suite.protect ((c.session v).key .server) ((c.session v).iv .server) 0 (v.flight (c.session v)) swire := by
    intro swire h
    rw [← hxs] at hmem ⊢
    have hxc : x.c = ci := by rw [hx]
    rw [hxc, hxs] at h
    rw [← hxs] at h
    exact sent_rfc (k := x.hsKey .server 0) hlv (by have := hsKey_sizes x .server 0; rw [hx] at this ⊢; exact this) h (fun m hm => (hmem m hm).1)
      (fun hc m hm => (hmem m hm).2 hc)
  refine ⟨by rw [hsid] at hfol; exact hfol, ?_, ?_⟩
  · obtain ⟨h, swire, g1, g2, g3⟩ := C75_server_flight_first env (b1 :: b2 :: b3 :: rest) ⟨x, chRec, c.hello, v.hello sid, ccs, [], v.flight (c.session v)⟩ _ context
      hd.prng hcertl hrec hans hctx hflight hlen
    refine ⟨h, g1, swire, ?_, hsent swire g2⟩
    rw [g3, hccs, ← hsid]
  · intro contents records tail incoming hrep hin hR htail hdel
    have htr : x.hellos ++ (v.flight (c.session v)).flatten = c.transcript v := by
      rw [hxh]
      rfl
    have hauth : ClientAuth env x context (c.transcript v) (c.answer (v.requests.head?.map Tls13.requestContext)) := by
      unfold ClientAuth
      unfold Drawn at hctx
      cases hca : env.config.clientCertCa with
      | none =>
        rw [hca] at hctx
        rw [hvr, hctx]
        rfl
      | some ca =>
        rw [hca] at hctx
        obtain ⟨y, _, _, hy⟩ := hctx
        have hyl := hctxl y hy
        have hreq : v.requests = [Tls13.certificateRequest y [0x0403]] := by rw [hvr, hy]; rfl
        have hctxy : Tls13.requestContext (Tls13.certificateRequest y [0x0403]) = y := by
          unfold Tls13.requestContext Tls13.certificateRequest
          rw [HelloProof.beBytes1]
          simp only [List.append_assoc]
          show (y ++ _).take (BitVec.ofNat 8 y.length).toNat = y
          exact List.take_left' (by rw [hyl]; rfl)
        have hval := hrep.proof (Tls13.certificateRequest y [0x0403]) (by rw [hreq]; simp)
        rw [hctxy] at hval
        rw [hreq]
        obtain ⟨caCert, cx, Qca, rfl, p1, p2, p3, p4, p5, p6⟩ := hin ca hca
        obtain ⟨Qc, q1, q2⟩ := hval.signature
        obtain ⟨size, body⟩ := hR.size (by rw [hreq]; simp)
        obtain ⟨lx, e1, e2, e3⟩ := leaf_read hval.leaf q1 size hval.period (hR.dates (by rw [hreq]; simp))
        have hcertm : (c.proof.certificate y).length < 2 ^ 16 := by
          refine ClientProof.content_le hrep.records _ ?_
          rw [hR.separate]
          simp [Tls13.Client.flight, hreq, hctxy, Tls13.Client.answer]
        refine ⟨c.proof.certificate y, c.proof.verify, ⟨c.proof.leaf.der, some lx⟩, ?_, ?_, ?_⟩
        · simp only [List.head?_cons, Option.map_some, hctxy]
          rfl
        · have hbl : (Tls13.certificateMessage y ((c.proof.leaf.der, c.proof.extensions) :: c.proof.chain)).length < 2 ^ 24 := by
            have := hcertm
            simp only [Tls13.Proof.certificate, Tls13.handshakeMessage, List.length_append, beBytes_length, List.length_singleton] at this
            omega
          have hraw := fromRaw_message .certificate (Tls13.certificateMessage y ((c.proof.leaf.der, c.proof.extensions) :: c.proof.chain)) [] hbl
          rw [List.append_nil] at hraw
          have hcm : ∃ more, Tls13.certificateMessage y ((c.proof.leaf.der, c.proof.extensions) :: c.proof.chain) = beBytes 1 y.length ++ y ++ more := by
            unfold Tls13.certificateMessage
            simp only [List.append_assoc]
            exact ⟨_, rfl⟩
          obtain ⟨more, hcm⟩ := hcm
          refine ⟨_, _, y, more, lx, hca, hraw, rfl, hy, hcm, ((C70_read env.now y (by omega)).2 _ _ _ hval.size).1 lx e1 e3, ?_, rfl, fun f hff => p6 f lx hff e1⟩
          · obtain ⟨b1, b2, b3, b4, b5⟩ := X509Proof.certificate_bounds caCert.tbs caCert.r caCert.s p4
            have hcf := X509Proof.fromRaw_certificate caCert.tbs (X509Proof.tbsOk p2 (by omega)) caCert.r caCert.s b3 b4 []
            rw [List.append_nil] at hcf
            have hcx : cx.getPublicKey = .ok ⟨⟨Qca.1, Qca.2⟩, Curve.secp256r1⟩ := by
              have := Res.ok.inj (p1.symm.trans hcf)
              rw [this]
              exact X509Proof.getPublicKey_point _ Qca.1 Qca.2 p3.1 p3.2.1 (by simp only [X509Proof.curve_name p2]) p3.2.2
            exact (C68_signed c.proof.leaf.tbs c.proof.leaf.r c.proof.leaf.s Qca.1 Qca.2 hval.leaf size body ⟨caCert.der, some cx⟩ cx rfl hcx
              ⟨c.proof.leaf.der, some lx⟩ (by
                unfold Certificate.fromRawX509
                have : Model.X509.fromRaw (Spec.X509.certificate c.proof.leaf.tbs c.proof.leaf.r c.proof.leaf.s) = .ok lx := e1
                rw [this]
                rfl)).2 p5
        · have hraw : Handshake.fromRaw c.proof.verify = .ok ⟨.certificateVerify, Tls13.certificateVerifyMessage 0x0403 (Der.ecdsaSig c.proof.r c.proof.s), c.proof.verify⟩ := by
            have hbl : (Tls13.certificateVerifyMessage 0x0403 (Der.ecdsaSig c.proof.r c.proof.s)).length < 2 ^ 24 := by
              obtain ⟨_, _, _, _, r2, _, t2, _⟩ := id q2
              have hn256 := n_lt
              have h1 := sig_length (r := c.proof.r) (s := c.proof.s) (by omega) (by omega)
              have h2 := intLen_le (n := c.proof.r) (by omega)
              have h3 := intLen_le (n := c.proof.s) (by omega)
              simp only [Tls13.certificateVerifyMessage, List.length_append, beBytes_length]
              omega
            have := fromRaw_message .certificateVerify (Tls13.certificateVerifyMessage 0x0403 (Der.ecdsaSig c.proof.r c.proof.s)) [] hbl
            rw [List.append_nil] at this
            exact this
          refine ⟨_, hraw, rfl, verified_rfc e2 .client ?_ ?_⟩
          · have := flatten_le (fun m hm => (hmem m hm).1)
            have h5 : (v.flight (c.session v)).length ≤ 5 := by
              simp [Tls13.Server.flight, Tls13.Server.opening, hreq]
            rw [← htr, hxh]
            simp only [List.length_append] at hsl ⊢
            omega
          · have ht : rfcHash x.t = v.suite.hash := by rw [hx]; exact hlv.hash
            rw [ht]
            exact q2
    have hconf : Conforming env (b1 :: b2 :: b3 :: rest) ⟨x, chRec, c.hello, v.hello sid, ccs, [], v.flight (c.session v)⟩ _ context
        (c.answer (v.requests.head?.map Tls13.requestContext)) [] records := ⟨hrec, hans, hctx, hflight, by show ClientAuth _ _ _ (x.hellos ++ _) _; rw [htr]; exact hauth, by
        show Tls13.ProtectedFlight _ _ _ _ (_ ++ [x.sess.finished .client (x.hellos ++ _ ++ _) ++ []]) _
        have := hrep.records
        rw [hR.separate] at this
        have hfl := flight_lib (k := x.hsKey .client 0) hlv (by have := hsKey_sizes x .client 0; rw [hx] at this ⊢; exact this) (by
          show Tls13.ProtectedFlight _ (x.sess.key .client) (x.sess.iv .client) _ _ _
          rw [hxs]
          exact this) hR.records
        rw [htr, List.append_nil, hxs]
        have hxc : x.c = ci := by rw [hx]
        rw [hxc]
        have e1 : (x.hsKey .client 0).key = x.sess.key .client := rfl
        have e2 : (x.hsKey .client 0).iv = x.sess.iv .client := rfl
        rw [e1, e2, hxs] at hfl
        exact hfl⟩
    have hxl : LibSuite v.code v.suite x.cs x.t x.c := by rw [hx]; exact hlv
    obtain ⟨str, h, swire, p, g1, g2, g3, g4, g5, g6, g7, g8⟩ := C75_server_completes env (b1 :: b2 :: b3 :: rest) _ _ context _ [] records tail incoming
      hd.prng hcertl hconf htail hdel
    have htrans : ∀ (str : TlsStream) (p : RecordPayloadProtection), str.protection = some p → p.cipher = x.c → RecProof.wKey p = x.appKey (x.hellos ++ (v.flight (c.session v)).flatten) .server →
        RecProof.rKey p = x.appKey (x.hellos ++ (v.flight (c.session v)).flatten) .client →
        Transport v.code v.suite str ((c.session v).appSecret (c.transcript v) .server) ((c.session v).appSecret (c.transcript v) .client) := by
      intro str p h1 h2 h3 h4
      rw [htr] at h3 h4
      rw [← hxs]
      exact ChannelProof.lib_transport hxl (by rw [hvc, hvs]; exact hsuite) h1 h2 h3 h4
    refine ⟨str, h, g1, ⟨swire, ?_, hsent swire g2⟩, htrans str p g4 g5 g7 g8, ?_⟩
    · rw [g3, hccs, ← hsid]
    · rintro init last more rfl rfl hlast
      rw [List.append_nil] at hdel
      obtain ⟨str, h, swire, p, g1, g2, g3, g4, g5, g6, g7, g8, g9, g10⟩ := C75_server_leaves env (b1 :: b2 :: b3 :: rest) _ _ context _ [] init last incoming more
        hd.prng hcertl hconf hlast hdel
      refine ⟨str, h, g1, ⟨swire, ?_, hsent swire g2⟩, htrans str p g4 g5 g7 g8, g9, g10⟩
      rw [g3, hccs, ← hsid]

end ATLS
