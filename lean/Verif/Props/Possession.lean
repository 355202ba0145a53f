import Verif.Spec.Possession
import Verif.Props.Replay
import Verif.Props.KeyLog
import Verif.Props.AgreementExample
/-
C120: a signature that authenticates one end in a handshake does not authenticate it in another.
-/
namespace ATLS
open ATLS.Model ATLS.Spec FlowProof

/-- In the run `r` of a client, the server has shown a certificate (the message `cm`) with the P-256 key `key`, after the messages `before`, and possession of this key (the
message `cv`). -/
def ServerVouched (env : ClientEnv) (r : ClientRun) (before cm cv : Bytes) (key : Nat × Nat) : Prop :=
  r.shown = before ++ cm ++ cv ∧ ∃ raw x, ServerCertificateShown env cm raw x ∧ x.getPublicKey = .ok ⟨⟨key.1, key.2⟩, Curve.secp256r1⟩ ∧
    PossessionShown .server r.x x (r.x.hellos ++ before ++ cm) cv

/-- In the exchange `r` of a server, the client has shown a certificate (the message `cm`) of the CA with the P-256 key `key`, and possession of this key (the message
`cv`). -/
def ClientVouched (env : ServerEnv) (ca : Certificate) (r : Exchange) (context : Option Bytes) (cm cv : Bytes) (key : Nat × Nat) : Prop :=
  ∃ raw x, CertificateShown env ca context cm raw x ∧ x.getPublicKey = .ok ⟨⟨key.1, key.2⟩, Curve.secp256r1⟩ ∧ PossessionShown .client r.x x (r.transcript ++ cm) cv

namespace PossessionProof

theorem content_inj {role : Tls13.Role} {a b : Bytes} (h : Tls13.verifyContent role a = Tls13.verifyContent role b) : a = b :=
  List.append_cancel_left h

/-- A signature accepted for two transcripts: they are the same, or there is an accident. -/
theorem same_or {key : Nat × Nat} {role : Tls13.Role} {h h' : Hash} {m m' : Bytes} {r s : Int}
    (h1 : Spec.Ecdsa.Accepts ((key.1 : Int), (key.2 : Int)) r s (Spec.Ecdsa.hashInt (Tls13.signedDigest role h m)))
    (h2 : Spec.Ecdsa.Accepts ((key.1 : Int), (key.2 : Int)) r s (Spec.Ecdsa.hashInt (Tls13.signedDigest role h' m'))) :
    m = m' ∨ Tls13.Reused key role h h' m m' := by
  by_cases hm : m = m'
  · exact .inl hm
  right
  by_cases hd : Tls13.signedDigest role h m = Tls13.signedDigest role h' m'
  · by_cases hc : Tls13.verifyContent role (h.H m) = Tls13.verifyContent role (h'.H m')
    · exact .transcript hm (content_inj hc)
    · exact .content hc hd
  · exact .signature r s hd h1 h2

theorem key_eq {x : Model.X509} {px py : Nat} {key : Nat × Nat} (h : x.getPublicKey = .ok ⟨⟨px, py⟩, Curve.secp256r1⟩)
    (h' : x.getPublicKey = .ok ⟨⟨key.1, key.2⟩, Curve.secp256r1⟩) : px = key.1 ∧ py = key.2 := by
  rw [h] at h'
  simp only [Res.ok.injEq, PublicKey.mk.injEq, Point.mk.injEq, Nat.cast_inj, and_true] at h'
  exact h'

/-- The signature in a proof of possession by a server is determined by the message. -/
theorem server_signature {x : Params} {cert : Model.X509} {messages cv : Bytes} {key : Nat × Nat} (h : PossessionShown .server x cert messages cv)
    (hk : cert.getPublicKey = .ok ⟨⟨key.1, key.2⟩, Curve.secp256r1⟩) :
    ∃ sig size, Signature.fromDer (cv.drop 8) = .ok (sig, size) ∧
      Spec.Ecdsa.Accepts ((key.1 : Int), (key.2 : Int)) sig.r sig.s (Spec.Ecdsa.hashInt (Tls13.signedDigest .server x.sess.hash messages)) := by
  obtain ⟨der, more, more', px, py, sig, size, rfl, h1, h2, h3, h4, h5⟩ := h
  obtain ⟨rfl, rfl⟩ := key_eq h3 hk
  refine ⟨sig, size, ?_, h4⟩
  rw [h5 rfl, List.append_nil]
  have : (Tls13.handshakeMessage 15#8 ([4#8, 3#8] ++ beBytes 2 size ++ der ++ more)).drop 8 = der ++ more := by
    unfold Tls13.handshakeMessage
    rw [show ([15#8] ++ beBytes 3 ([4#8, 3#8] ++ beBytes 2 size ++ der ++ more).length ++ ([4#8, 3#8] ++ beBytes 2 size ++ der ++ more) : Bytes) =
      ([15#8] ++ beBytes 3 ([4#8, 3#8] ++ beBytes 2 size ++ der ++ more).length ++ [4#8, 3#8] ++ beBytes 2 size) ++ (der ++ more) by simp only [List.append_assoc]]
    exact List.drop_left' (by simp [beBytes_length])
  rw [this]
  exact h2

theorem vouched {env : ClientEnv} {reads : List Bytes} {sock : Socket} {s : TlsStream} {r : ClientRun} (h : ClientCompleted env reads sock s r) :
    ∃ before cm cv key, ServerVouched env r before cm cv key := by
  obtain ⟨ee, cm, cv, raw, x, h1, h2, h3⟩ := h.shown
  obtain ⟨_, _, _, px, py, _, _, _, _, _, h4, _⟩ := id h3
  exact ⟨_, cm, cv, (px, py), h1, raw, x, h2, h4, h3⟩

/-- The client's random value in its transcript. -/
theorem client_random {env : ClientEnv} {reads : List Bytes} {sock : Socket} {s : TlsStream} {r : ClientRun} (h : ClientCompleted env reads sock s r) (more : Bytes) :
    ∃ a b rest, reads = a :: b :: rest ∧ ((r.x.hellos ++ more).drop 6).take 32 = b.take 32 := by
  obtain ⟨rng1, rng2, rng3, random, sid, h1, h2, _, l1, _, _, _, hch⟩ := h.offered
  obtain ⟨_, _, _, _, _, _, _, _, _, _, _, _, hx⟩ := h.answered
  obtain ⟨a, rest, rfl, _, rfl⟩ := RandomProof.between_one h1
  obtain ⟨b, rest, rfl, rfl, _⟩ := RandomProof.bytes_one h2
  refine ⟨a, b, rest, rfl, ?_⟩
  rw [hx, hch, List.append_assoc]
  exact ClientProof.offer_random _ sid (publicShare r.n) env.config.serverName (r.sh ++ more) l1

end PossessionProof
open PossessionProof

/-- C120, the server's signature: two clients connect. Each server has shown a certificate and a signature; if key and signature message are the same, then so is everything
that was sent before the signature (beginning with the ClientHello), or there was an accident. -/
theorem C120_server_proof (env env' : ClientEnv) (reads reads' : List Bytes) (sock sock' : Socket) (s s' : TlsStream) (h h' : Option ClientHandshake)
    (hcl : ∀ c, env.config.clientCert = some c → c.raw.length < 2 ^ 24) (hn : ∀ n, env.config.serverName = some n → n.length < 2 ^ 24) (hin : sock.incoming.flatten.length < 2 ^ 24)
    (hcl' : ∀ c, env'.config.clientCert = some c → c.raw.length < 2 ^ 24) (hn' : ∀ n, env'.config.serverName = some n → n.length < 2 ^ 24)
    (hin' : sock'.incoming.flatten.length < 2 ^ 24)
    (hw : ClientConnection.connect env reads sock = (.ok s, h)) (hw' : ClientConnection.connect env' reads' sock' = (.ok s', h')) :
    ∃ r before cm cv key r' before' cm' cv' key', ClientCompleted env reads sock s r ∧ ServerVouched env r before cm cv key ∧
      ClientCompleted env' reads' sock' s' r' ∧ ServerVouched env' r' before' cm' cv' key' ∧
      (cv = cv' → key = key' → r.x.hellos ++ before ++ cm = r'.x.hellos ++ before' ++ cm' ∨
        Tls13.Reused key .server r.x.sess.hash r'.x.sess.hash (r.x.hellos ++ before ++ cm) (r'.x.hellos ++ before' ++ cm')) := by
  obtain ⟨r, C⟩ := C45_client_connects env reads sock s h hcl hn hin hw
  obtain ⟨r', C'⟩ := C45_client_connects env' reads' sock' s' h' hcl' hn' hin' hw'
  obtain ⟨before, cm, cv, key, V⟩ := vouched C
  obtain ⟨before', cm', cv', key', V'⟩ := vouched C'
  refine ⟨r, before, cm, cv, key, r', before', cm', cv', key', C, V, C', V', ?_⟩
  rintro rfl rfl
  obtain ⟨_, _, _, _, k1, k2⟩ := V
  obtain ⟨_, _, _, _, k1', k2'⟩ := V'
  obtain ⟨sig, size, e1, e2⟩ := server_signature k2 k1
  obtain ⟨sig', size', e1', e2'⟩ := server_signature k2' k1'
  rw [e1] at e1'
  obtain ⟨rfl, _⟩ := Prod.mk.inj (Res.ok.inj e1')
  exact same_or e2 e2'

/-- C120, a fresh client: when the two clients draw different random values, the signature messages or the keys differ, or there was an accident. So what a server has signed
once, for whomever, connects nobody to an impostor later. -/
theorem C120_fresh (env env' : ClientEnv) (a b a' b' : Bytes) (reads reads' : List Bytes) (sock sock' : Socket) (s s' : TlsStream) (h h' : Option ClientHandshake)
    (hcl : ∀ c, env.config.clientCert = some c → c.raw.length < 2 ^ 24) (hn : ∀ n, env.config.serverName = some n → n.length < 2 ^ 24) (hin : sock.incoming.flatten.length < 2 ^ 24)
    (hcl' : ∀ c, env'.config.clientCert = some c → c.raw.length < 2 ^ 24) (hn' : ∀ n, env'.config.serverName = some n → n.length < 2 ^ 24)
    (hin' : sock'.incoming.flatten.length < 2 ^ 24)
    (hw : ClientConnection.connect env (a :: b :: reads) sock = (.ok s, h)) (hw' : ClientConnection.connect env' (a' :: b' :: reads') sock' = (.ok s', h'))
    (hne : b.take 32 ≠ b'.take 32) :
    ∃ r before cm cv key r' before' cm' cv' key', ClientCompleted env (a :: b :: reads) sock s r ∧ ServerVouched env r before cm cv key ∧
      ClientCompleted env' (a' :: b' :: reads') sock' s' r' ∧ ServerVouched env' r' before' cm' cv' key' ∧
      (cv ≠ cv' ∨ key ≠ key' ∨
        Tls13.Reused key .server r.x.sess.hash r'.x.sess.hash (r.x.hellos ++ before ++ cm) (r'.x.hellos ++ before' ++ cm')) := by
  obtain ⟨r, before, cm, cv, key, r', before', cm', cv', key', C, V, C', V', H⟩ :=
    C120_server_proof env env' _ _ sock sock' s s' h h' hcl hn hin hcl' hn' hin' hw hw'
  refine ⟨r, before, cm, cv, key, r', before', cm', cv', key', C, V, C', V', ?_⟩
  by_cases h1 : cv = cv'
  swap
  · exact .inl h1
  by_cases h2 : key = key'
  swap
  · exact .inr (.inl h2)
  rcases H h1 h2 with H | H
  · obtain ⟨_, _, _, e1, e2⟩ := client_random C (before ++ cm)
    obtain ⟨_, _, _, e1', e2'⟩ := client_random C' (before' ++ cm')
    cases e1
    cases e1'
    rw [← List.append_assoc] at e2 e2'
    exact (hne (by rw [← e2, ← e2', H])).elim
  · exact .inr (.inr H)

/-- C120, the client's signature: a server, or two, accept clients with certificates of a CA. If key and signature message are the same in two handshakes, then so is
everything that was sent before the signature, or there was an accident. -/
theorem C120_client_proof (env env' : ServerEnv) (ca ca' : Certificate) (reads reads' : List Bytes) (sock sock' : Socket) (s s' : TlsStream) (h h' : ServerHandshake)
    (hc : env.config.cert.raw.length < 2 ^ 24) (hca : env.config.clientCertCa = some ca) (hc' : env'.config.cert.raw.length < 2 ^ 24)
    (hca' : env'.config.clientCertCa = some ca')
    (ha : ServerConnection.accept env reads sock = (.ok s, h)) (ha' : ServerConnection.accept env' reads' sock' = (.ok s', h')) :
    ∃ r context cm cv fin tail key r' context' cm' cv' fin' tail' key', Accepted env reads sock s r context [cm, cv] fin tail ∧ ClientVouched env ca r context cm cv key ∧
      Accepted env' reads' sock' s' r' context' [cm', cv'] fin' tail' ∧ ClientVouched env' ca' r' context' cm' cv' key' ∧
      (cv = cv' → key = key' → r.transcript ++ cm = r'.transcript ++ cm' ∨
        Tls13.Reused key .client r.x.sess.hash r'.x.sess.hash (r.transcript ++ cm) (r'.transcript ++ cm')) := by
  have one : ∀ (env : ServerEnv) (ca : Certificate) (reads : List Bytes) (sock : Socket) (s : TlsStream) (h : ServerHandshake) (_ : env.config.cert.raw.length < 2 ^ 24)
      (_ : env.config.clientCertCa = some ca) (_ : ServerConnection.accept env reads sock = (.ok s, h)), ∃ r context cm cv fin tail key,
      Accepted env reads sock s r context [cm, cv] fin tail ∧ ClientVouched env ca r context cm cv key ∧ ∃ hs sig size, Handshake.fromRaw cv = .ok hs ∧
        Signature.fromDer (hs.fraqment.drop 4) = .ok (sig, size) ∧
        Spec.Ecdsa.Accepts ((key.1 : Int), (key.2 : Int)) sig.r sig.s (Spec.Ecdsa.hashInt (Tls13.signedDigest .client r.x.sess.hash (r.transcript ++ cm))) := by
    intro env ca reads sock s h hc hca ha
    obtain ⟨r, context, auth, fin, tail, hA⟩ := C42_server_accepts env reads sock s h hc ha
    have h1 := hA.authenticated
    unfold ClientAuth at h1
    rw [hca] at h1
    obtain ⟨m1, m2, cert, rfl, h2, h3⟩ := h1
    have hctx : ∀ c, context = some c → c.length = 32 := by
      obtain ⟨req, cv, hr, _⟩ := hA.flight
      unfold Requested at hr
      rw [hca] at hr
      obtain ⟨c, hl, rfl, _⟩ := hr
      intro c' hc'
      rw [← Option.some.inj hc']
      exact hl
    obtain ⟨ca', x, g1, g2, g3⟩ := ServerProof.presented_shown hctx h2
    have : ca' = ca := by rw [hca] at g1; exact (Option.some.inj g1).symm
    subst this
    have hl : (r.transcript ++ m1).length < 2 ^ 53 := by
      have := hA.size.1
      have := hA.size.2.1
      simp only [List.flatten_cons, List.flatten_nil, List.length_append, List.append_nil] at this ⊢
      omega
    have hshown := ServerProof.possessed_shown g2 hl h3
    obtain ⟨hs, f1, _, f2⟩ := h3
    obtain ⟨px, py, sig, size, f3, f4, f5⟩ := C69_sound cert x .client _ _ g2 f2
    rw [ts_finalize _ _ hl] at f5
    exact ⟨r, context, m1, m2, fin, tail, (px, py), hA, ⟨cert.raw, x, g3, f3, hshown⟩, hs, sig, size, f1, f4, f5⟩
  obtain ⟨r, context, cm, cv, fin, tail, key, A, V, hs, sig, size, e1, e2, e3⟩ := one env ca reads sock s h hc hca ha
  obtain ⟨r', context', cm', cv', fin', tail', key', A', V', hs', sig', size', e1', e2', e3'⟩ := one env' ca' reads' sock' s' h' hc' hca' ha'
  refine ⟨r, context, cm, cv, fin, tail, key, r', context', cm', cv', fin', tail', key', A, V, A', V', ?_⟩
  rintro rfl rfl
  rw [e1] at e1'
  obtain rfl := Res.ok.inj e1'
  rw [e2] at e2'
  obtain ⟨rfl, _⟩ := Prod.mk.inj (Res.ok.inj e2')
  exact same_or e3 e3'

/-- The example client and the example server with client authentication meet the hypotheses of `C120_server_proof` and of `C120_client_proof` (each taken twice). A
handshake has no accident with itself. -/
example : (∃ (env : ClientEnv) (reads : List Bytes) (sock : Socket) (s : TlsStream) (h : Option ClientHandshake), (∀ c, env.config.clientCert = some c → c.raw.length < 2 ^ 24) ∧
      (∀ n, env.config.serverName = some n → n.length < 2 ^ 24) ∧ sock.incoming.flatten.length < 2 ^ 24 ∧ ClientConnection.connect env reads sock = (.ok s, h)) ∧
    (∃ (env : ServerEnv) (ca : Certificate) (reads : List Bytes) (sock : Socket) (s : TlsStream) (h : ServerHandshake), env.config.cert.raw.length < 2 ^ 24 ∧ env.config.clientCertCa = some ca ∧
      ServerConnection.accept env reads sock = (.ok s, h)) ∧
    ∀ key role h m, ¬ Tls13.Reused key role h h m m := by
  obtain ⟨se, ce, sr, cr, so, co, ss, cs, h, h', r, _, _, _, _, e1, e2, e3, _, _, e4, e5, e6, e7, _⟩ := C88_example
  obtain ⟨ca, hca⟩ := Option.isSome_iff_exists.1 e3
  refine ⟨⟨ce, cr, co, cs, h', e5, e6, e7, e2⟩, ⟨se, ca, sr, so, ss, h, e4, hca, e1⟩, ?_⟩
  rintro key role h m (h1 | h1 | ⟨_, _, h1⟩)
  · exact h1 rfl
  · exact h1 rfl
  · exact h1 rfl

/-- Two connections of the example client to the example server, with different random values, meet the hypotheses of `C120_fresh`. -/
example : ∃ (env env' : ClientEnv) (a b a' b' : Bytes) (reads reads' : List Bytes) (sock sock' : Socket) (s s' : TlsStream) (h h' : Option ClientHandshake),
    (∀ c, env.config.clientCert = some c → c.raw.length < 2 ^ 24) ∧ (∀ n, env.config.serverName = some n → n.length < 2 ^ 24) ∧ sock.incoming.flatten.length < 2 ^ 24 ∧
    (∀ c, env'.config.clientCert = some c → c.raw.length < 2 ^ 24) ∧ (∀ n, env'.config.serverName = some n → n.length < 2 ^ 24) ∧ sock'.incoming.flatten.length < 2 ^ 24 ∧
    ClientConnection.connect env (a :: b :: reads) sock = (.ok s, h) ∧ ClientConnection.connect env' (a' :: b' :: reads') sock' = (.ok s', h') ∧ b.take 32 ≠ b'.take 32 := by
  have one : ∀ b : Bytes, b.length = 100 → ((Rng.urandom [zeros 100, b, zeros 100]).between 1 32 : Res TlsError (Int × Rng)) = .ok (256, .urandom [b, zeros 100]) → ∃ (env : ClientEnv) (sock : Socket) (s : TlsStream) (h : Option ClientHandshake),
      (∀ c, env.config.clientCert = some c → c.raw.length < 2 ^ 24) ∧ (∀ n, env.config.serverName = some n → n.length < 2 ^ 24) ∧ sock.incoming.flatten.length < 2 ^ 24 ∧
      ClientConnection.connect env (zeros 100 :: b :: [zeros 100]) sock = (.ok s, h) := by
    intro b hb hbt
    obtain ⟨x, hx, hs⟩ := own_identity
    obtain ⟨sec, hsec, _⟩ := PairProof.secret_total (n := 256) (by norm_num) (by norm_num) (publicShare_length 257)
    have hbytes : ((Rng.urandom [b, zeros 100]).bytes 32 : Res TlsError (Bytes × Rng)) = .ok (b.take 32, .urandom [zeros 100]) := by
      unfold Rng.bytes readFromUrandom
      simp [hb, slice]
    obtain ⟨q, hq⟩ : ∃ q : Draws, q = ⟨256, b.take 32, zeros 32, zeros 32, 257, zeros 32, sec⟩ := ⟨_, rfl⟩
    have hf : q.From (exampleServer none (some (ascii "anothertls.local"))) [zeros 100, b, zeros 100] [zeros 100, oneRead, zeros 100] := by
      rw [hq]
      exact ⟨⟨_, _, _, hbt, hbytes, rfl⟩, ⟨_, _, _, rfl, example_between.2, fun _ => rfl⟩, hsec⟩
    obtain ⟨kc, ks, g1, g2, g3⟩ := PairProof.signed_exists _ _ _ _ q (example_matching x hx hs none (.inl rfl)) hf (by rw [hq]; exact example_shares.1) (by rw [hq]; exact example_shares.2)
    obtain ⟨r, rng, auth, ws, cws, R⟩ := PairProof.runs g1 g2 (by rw [hq]; exact example_shares.1) (by rw [hq]; exact example_shares.2) g3
    have size : (Spec.X509.certificate ownTbs ownR ownS).length + 400 ≤ 2 ^ 24 := by decide +kernel
    have hsz : (Spec.X509.certificate ownTbs ownR ownS).length ≤ 1800 := by decide +kernel
    have hname : ∀ n, (some (ascii "anothertls.local")) = some n → n.length < 2 ^ 24 := fun n hn => by rw [← Option.some.inj hn]; decide +kernel
    obtain ⟨cs, h', r', b1, b2, _⟩ := AgreeProof.run_completed R hsz (fun c hc => by rw [← Option.some.inj hc]; exact size) hname
    refine ⟨_, _, cs, h', fun c hc => ?_, hname, ?_, b1⟩
    · rw [← Option.some.inj hc]
      show (Spec.X509.certificate ownTbs ownR ownS).length < 2 ^ 24
      decide +kernel
    · have h1 := R.fromServer hsz
      have h2 := R.serverCount
      have h3 : ∀ l : List Bytes, (∀ w ∈ l, w.length ≤ 2048) → l.flatten.length ≤ 2048 * l.length := by
        intro l
        induction l with
        | nil => simp
        | cons w l ih =>
          intro hl
          have := hl w (by simp)
          have := ih fun v hv => hl v (by simp [hv])
          simp only [List.flatten_cons, List.length_append, List.length_cons]
          omega
      have h4 := h3 _ h1
      simp only [List.length_cons] at h4
      show (Tls13.plainRecord 22#8 r.sh :: r.ccs :: ws).flatten.length < _
      omega
  obtain ⟨env, sock, s, h, e1, e2, e3, e4⟩ := one (zeros 100) (by simp [zeros]) example_between.1
  obtain ⟨env', sock', s', h', e1', e2', e3', e4'⟩ := one (List.replicate 100 1#8) (by simp) (by decide +kernel)
  exact ⟨env, env', _, _, _, _, _, _, sock, sock', s, s', h, h', e1, e2, e3, e1', e2', e3', e4, e4', by decide⟩

end ATLS
