import Verif.Spec.Agreement
import Verif.Props.Answer
import Verif.Props.Server
/-
C88: a man in the middle cannot change what is negotiated.
-/
namespace ATLS
open ATLS.Model ATLS.Spec FlowProof RfcProof

/-- The transcript up to the server's Finished as the server has it, and as the client has it. -/
def Exchange.before (r : Exchange) : Bytes := r.x.hellos ++ r.flight.dropLast.flatten
def ClientRun.before (r : ClientRun) : Bytes := r.x.hellos ++ r.shown

/-- The two ends agree: the server answered the client's ClientHello (which the client sent as one record; the bytes `extra` following it in the
record that reached the server are not the client's). If there are none, then the ServerHello that the client took is the server's, and they use the
same cipher suite; and if that record has no further bytes either, the certificate the client checked is the server's. -/
structure Agreed (se : ServerEnv) (ce : ClientEnv) (r : Exchange) (r' : ClientRun) : Prop where
  offer : ∃ extra, r.ch = r'.ch ++ extra
  answer : r.ch = r'.ch → (∃ extra, r'.sh = r.sh ++ extra) ∧ r'.x.cs = r.x.cs
  certificate : r.ch = r'.ch → r'.sh = r.sh → ∃ x, ServerCertificateShown ce (certificateMsg se.config.cert) se.config.cert.raw x

namespace AgreeProof

theorem message_inj {t t' : Byte} {b b' x y : Bytes} (h : Tls13.handshakeMessage t b ++ x = Tls13.handshakeMessage t' b' ++ y) (hb : b.length < 2 ^ 24)
    (hb' : b'.length < 2 ^ 24) : t = t' ∧ b = b' ∧ x = y := by
  unfold Tls13.handshakeMessage at h
  simp only [List.append_assoc, List.singleton_append, List.cons_append, List.nil_append] at h
  obtain ⟨h1, h2⟩ := List.cons.inj h
  obtain ⟨h3, h4⟩ := List.append_inj h2 (by simp [beBytes_length])
  have hl : b.length = b'.length := by
    have := congrArg beNat h3
    rw [beNat_beBytes, beNat_beBytes] at this
    rwa [Nat.mod_eq_of_lt (by omega), Nat.mod_eq_of_lt (by omega)] at this
  obtain ⟨h5, h6⟩ := List.append_inj h4 hl
  exact ⟨h1, h5, h6⟩

theorem mapXor_inj {a b : Bytes} {c : Byte} (h : a.map (· ^^^ c) = b.map (· ^^^ c)) : a = b := by
  refine List.map_injective_iff.2 ?_ h
  intro x y hxy
  have : (x ^^^ c) ^^^ c = (y ^^^ c) ^^^ c := by rw [show x ^^^ c = y ^^^ c from hxy]
  simpa [BitVec.xor_assoc] using this

theorem hmacKey_length (t : HashType) (k : Bytes) : (hmacKey (rfcHash t) k).length = (rfcHash t).block := by
  have h0 : (rfcHash t).out ≤ (rfcHash t).block := by cases t <;> decide
  unfold hmacKey
  simp only [List.length_append, zeros, List.length_replicate]
  split_ifs with h
  · rw [rfc_length]; omega
  · omega

/-- Without collisions equal Finished messages are for the same transcript. -/
theorem finished_inj {x x' : Params} {m m' : Bytes} {side : Tls13.Side} (h : x.sess.finished side m = x'.sess.finished side m')
    (hc : Tls13.NoCollision x.sess.hash (x.sess.finishedInputs side m) (x'.sess.finishedInputs side m')) : m = m' ∧ x.t = x'.t := by
  have hl := congrArg List.length h
  rw [finished_length, finished_length] at hl
  have ht : x.t = x'.t := by
    cases h1 : x.t <;> cases h2 : x'.t <;> rw [h1, h2] at hl <;> first | rfl | exact absurd hl (by decide)
  refine ⟨?_, ht⟩
  have hh : x'.sess.hash = x.sess.hash := by
    show rfcHash x'.t = rfcHash x.t
    rw [ht]
  have hlen := fun k => hmacKey_length x.t k
  unfold Tls13.NoCollision Tls13.Session.finishedInputs at hc
  unfold Tls13.Session.finished at h
  rw [hh] at h hc
  have h := (message_inj (x := []) (y := []) (by simpa using h) (by
    unfold Tls13.verifyData Spec.hmac
    rw [show x.sess.hash = rfcHash x.t from rfl, rfc_length]
    have := out_le x.t
    omega) (by
    unfold Tls13.verifyData Spec.hmac
    rw [show x.sess.hash = rfcHash x.t from rfl, rfc_length]
    have := out_le x.t
    omega)).2.1
  unfold Tls13.verifyData Spec.hmac at h
  obtain ⟨k, hk⟩ : ∃ k, k = hmacKey x.sess.hash (Tls13.finishedKey x.sess.hash (x.sess.secret side)) := ⟨_, rfl⟩
  obtain ⟨k', hk'⟩ : ∃ k', k' = hmacKey x.sess.hash (Tls13.finishedKey x.sess.hash (x'.sess.secret side)) := ⟨_, rfl⟩
  have hkl : k.length = k'.length := by
    rw [hk, hk']
    exact (hlen _).trans (hlen _).symm
  simp only [← hk, ← hk'] at h hc
  simp only [List.zip_cons_cons, List.zip_nil_left, List.mem_cons, List.not_mem_nil, or_false, forall_eq_or_imp, forall_eq] at hc
  obtain ⟨c1, c2, c3⟩ := hc
  have h3 := c3 h
  obtain ⟨_, h4⟩ := List.append_inj h3 (by simp only [List.length_map, hkl])
  obtain ⟨_, h5⟩ := List.append_inj (c2 h4) (by simp only [List.length_map, hkl])
  exact c1 h5

/-- A sequence of messages of type 13 up to one of type 11. -/
theorem requests_inj : ∀ (a a' : List Bytes) {b b' x y : Bytes},
    (a.map (Tls13.handshakeMessage 13#8)).flatten ++ (Tls13.handshakeMessage 11#8 b ++ x) = (a'.map (Tls13.handshakeMessage 13#8)).flatten ++ (Tls13.handshakeMessage 11#8 b' ++ y) →
    ((a.map (Tls13.handshakeMessage 13#8)).flatten ++ (Tls13.handshakeMessage 11#8 b ++ x)).length < 2 ^ 24 → b = b' ∧ x = y
  | [], [], b, b', x, y, h, hl => by
    have hl' := hl
    simp only [List.map_nil, List.flatten_nil, List.nil_append] at h hl hl'
    rw [h] at hl'
    simp only [Tls13.handshakeMessage, List.length_append] at hl hl'
    exact (message_inj h (by omega) (by omega)).2
  | [], c :: a', b, b', x, y, h, hl => by
    have hl' := hl
    rw [h] at hl'
    simp only [List.map_nil, List.flatten_nil, List.nil_append, List.map_cons, List.flatten_cons, List.append_assoc] at h hl hl'
    simp only [Tls13.handshakeMessage, List.length_append] at hl hl'
    exact absurd (message_inj h (by omega) (by omega)).1 (by decide)
  | c :: a, [], b, b', x, y, h, hl => by
    have hl' := hl
    rw [h] at hl'
    simp only [List.map_nil, List.flatten_nil, List.nil_append, List.map_cons, List.flatten_cons, List.append_assoc] at h hl hl'
    simp only [Tls13.handshakeMessage, List.length_append] at hl hl'
    exact absurd (message_inj h (by omega) (by omega)).1 (by decide)
  | c :: a, c' :: a', b, b', x, y, h, hl => by
    have hl' := hl
    rw [h] at hl'
    simp only [List.map_cons, List.flatten_cons, List.append_assoc] at h hl hl'
    have h1 : c.length < 2 ^ 24 := by simp only [Tls13.handshakeMessage, List.length_append] at hl; omega
    have h2 : c'.length < 2 ^ 24 := by simp only [Tls13.handshakeMessage, List.length_append] at hl'; omega
    refine requests_inj a a' (message_inj h h1 h2).2.2 ?_
    rw [List.length_append] at hl
    omega

/-- Equal messages after the hellos are with the same certificate, and equal up to the server's Finished. -/
theorem certificate_of {se : ServerEnv} {ce : ClientEnv} {sreads creads : List Bytes} {ssock csock : Socket} {ss cs : TlsStream} {r : Exchange} {context : Option Bytes}
    {auth : List Bytes} {fin tail : Bytes} {r' : ClientRun} (ha : Accepted se sreads ssock ss r context auth fin tail) (hc : ClientCompleted ce creads csock cs r')
    {z z' : Bytes} (g4 : r.flight.dropLast.flatten ++ z = r'.shown ++ z') (hl : (r.flight.dropLast.flatten ++ z).length < 2 ^ 24) :
    (∃ x, ServerCertificateShown ce (certificateMsg se.config.cert) se.config.cert.raw x) ∧ r.flight.dropLast.flatten = r'.shown := by
  have hlen := hl
  have g0 := g4
  rw [g4] at hlen
  obtain ⟨request, cv, hreq, ⟨_, der, _, _, hcv⟩, hfl⟩ := ha.flight
  obtain ⟨ee, cm, cv', raw, x, k1, ⟨c, n, post, q1, q2, q3, q4, q5⟩, ⟨der', more, more', _, _, _, size, hcv', _, _, _, _, hmore⟩⟩ := hc.shown
  obtain ⟨rs, hrs⟩ : ∃ rs : List Bytes, request = rs.map (Tls13.handshakeMessage 13#8) := by
    unfold Requested at hreq
    split at hreq
    · exact ⟨[], hreq.2⟩
    · obtain ⟨d, _, _, hd⟩ := hreq
      exact ⟨[_], hd⟩
  have hD : r.flight.dropLast = [encryptedExtensions] ++ request ++ [certificateMsg se.config.cert, cv] := by
    rw [hfl]
    rw [show ∀ (a : List Bytes) (b c d : Bytes), a ++ [b, c, d] = (a ++ [b, c]) ++ [d] by simp, List.dropLast_concat]
  rw [hD] at hl
  rw [hD, k1, hrs] at g4
  rw [k1] at hlen
  rw [hrs] at hl
  unfold opening at g4 hlen
  unfold encryptedExtensions certificateMsg at g4 hl
  rw [q3] at g4
  simp only [List.flatten_append, List.flatten_cons, List.flatten_nil, List.append_nil, List.append_assoc, List.length_append] at g4 hl hlen
  have heel : ee.length < 2 ^ 24 := by simp only [Tls13.handshakeMessage, List.length_append] at hlen; omega
  obtain ⟨_, _, g5⟩ := message_inj g4 (by decide) heel
  obtain ⟨g6, gz⟩ := requests_inj _ _ g5 (by simp only [List.length_append]; omega)
  have hrawl : raw.length < 2 ^ 24 := by
    rw [q3] at hlen
    simp only [Tls13.handshakeMessage, List.length_append] at hlen
    omega
  have hcrl : se.config.cert.raw.length < 2 ^ 24 := by
    simp only [Tls13.handshakeMessage, Tls13.certificateMessage, Tls13.certificateEntry, List.length_append, List.map_cons, List.map_nil, List.flatten_cons, List.flatten_nil] at hl
    omega
  have g7 := g6
  simp only [Tls13.certificateMessage, Tls13.certificateEntry, List.length_nil, List.map_cons, List.map_nil, List.flatten_cons, List.flatten_nil, List.append_nil,
    List.append_assoc] at g7
  obtain ⟨g8, g9⟩ := List.append_inj g7 (by simp [beBytes_length])
  have hc0 : c = [] := by
    have := congrArg beNat g8
    rw [beNat_beBytes, beNat_beBytes, Nat.mod_eq_of_lt (by decide), Nat.mod_eq_of_lt (by omega)] at this
    exact List.length_eq_zero_iff.1 this.symm
  subst hc0
  simp only [List.nil_append] at g9
  obtain ⟨g10, g11⟩ := List.append_inj g9 (by simp [beBytes_length, q2])
  obtain ⟨g12, g13⟩ := List.append_inj g11 (by simp [beBytes_length])
  have hrl : se.config.cert.raw.length = raw.length := by
    have := congrArg beNat g12
    rw [beNat_beBytes, beNat_beBytes, Nat.mod_eq_of_lt (by omega), Nat.mod_eq_of_lt (by omega)] at this
    exact this
  obtain ⟨g14, _⟩ := List.append_inj g13 hrl
  have hzz : z = z' := by
    rw [hmore rfl, List.append_nil] at hcv'
    rw [hcv, hcv'] at gz
    rw [hcv] at hl
    rw [hcv'] at hlen
    simp only [Tls13.handshakeMessage, List.length_append] at hl hlen
    refine (message_inj gz ?_ ?_).2.2
    · omega
    · simp only [List.length_append]; omega
  refine ⟨⟨x, [], n, post, q1, q2, ?_, by rw [g14]; exact q4, q5⟩, ?_⟩
  swap
  · rw [hzz] at g0
    exact List.append_cancel_right g0
  unfold certificateMsg
  rw [g6, g14]
  simp only [List.append_assoc]

/-- Equal transcripts (with what follows the server's CertificateVerify) are for the same negotiation. -/
theorem agreed_of {se : ServerEnv} {ce : ClientEnv} {sreads creads : List Bytes} {ssock csock : Socket} {ss cs : TlsStream} {r : Exchange} {context : Option Bytes}
    {auth : List Bytes} {fin tail : Bytes} {r' : ClientRun} (ha : Accepted se sreads ssock ss r context auth fin tail) (hc : ClientCompleted ce creads csock cs r')
    {z z' : Bytes} (hm : r.before ++ z = r'.before ++ z') (hl : (r.before ++ z).length < 2 ^ 24) : Agreed se ce r r' := by
  obtain ⟨rng, hs, hello, answer, pk, share, body, e1, e2, e3, e4, e5, e6, e7, e8, e9, e10, e11, e12, e13, e14⟩ := ha.answered
  obtain ⟨i1, i2, i3, i4⟩ := handshake_inv e1
  obtain ⟨_, _, _, random, sid, _, _, _, _, _, _, _, hch⟩ := hc.offered
  obtain ⟨hs', hello', share', f1, f2, f3, f4, f5, f6, f7, f8, f9, f10⟩ := hc.answered
  obtain ⟨j1, j2, j3, j4⟩ := handshake_inv f1
  rw [e2] at i1
  rw [f2] at j1
  obtain ⟨offer, ho⟩ : ∃ offer, offer = (Tls13.clientOffer random sid (publicShare r'.n) ce.config.serverName).bytes := ⟨_, rfl⟩
  rw [← ho] at hch
  have hlen := hl
  rw [hm] at hlen
  unfold Exchange.before ClientRun.before at hm
  unfold Exchange.before at hl
  unfold ClientRun.before at hlen
  rw [e14, f10] at hm
  rw [e14] at hl
  rw [f10] at hlen
  simp only [List.length_append] at hl hlen
  obtain ⟨e, he⟩ : ∃ e, e = r.ch.drop hs.raw.length := ⟨_, rfl⟩
  obtain ⟨e', he'⟩ : ∃ e', e' = r'.sh.drop hs'.raw.length := ⟨_, rfl⟩
  rw [← he] at i2
  rw [← he'] at j2
  have hol : offer.length < 2 ^ 24 := by
    rw [hch] at hlen
    simp only [Tls13.handshakeMessage, List.length_append] at hlen
    omega
  have hbl : body.length < 2 ^ 24 := by
    rw [e6] at hl
    simp only [Tls13.handshakeMessage, List.length_append] at hl
    omega
  have hm1 := hm
  rw [i2, i1, hch] at hm1
  simp only [List.append_assoc] at hm1
  obtain ⟨_, g1, g2⟩ := message_inj hm1 i4 hol
  have hoffer : r.ch = r'.ch ++ e := by rw [i2, i1, g1, hch]; rfl
  have hempty : r.ch = r'.ch → e = [] := by
    intro h
    rw [h] at hoffer
    simpa using hoffer
  have hans : r.ch = r'.ch → body = hs'.fraqment ∧ r.flight.dropLast.flatten ++ z = e' ++ (r'.shown ++ z') := by
    intro h
    rw [hempty h, List.nil_append, e6, j2, j1] at g2
    simp only [List.append_assoc] at g2
    exact (message_inj g2 hbl j4).2
  refine ⟨⟨e, hoffer⟩, ?_, ?_⟩
  · intro h
    obtain ⟨g3, _⟩ := hans h
    refine ⟨⟨e', ?_⟩, ?_⟩
    · rw [e6, g3]
      conv_lhs => rw [j2, j1]
      rfl
    · obtain ⟨wire, shares, w1, _, _, w2, _⟩ := C36_reachable hs.fraqment hello _ _ answer pk rng (by have := ha.size.2.2; omega) e3 e4
      rw [e5] at w1
      obtain rfl := Res.ok.inj w1
      rw [← g3, w2] at f3
      obtain rfl := Res.ok.inj f3
      rw [f7, e11]
  · intro h h'
    obtain ⟨g3, g4⟩ := hans h
    have he0 : e' = [] := by
      have h5 : r.sh = r.sh ++ e' := by
        conv_lhs => rw [← h', j2, j1, ← g3]
        rw [e6]; rfl
      simpa using h5
    rw [he0, List.nil_append] at g4
    exact (certificate_of ha hc g4 (by simp only [List.length_append]; omega)).1

end AgreeProof

/-- C88, as the client sees it. A client and a server complete their handshakes, whatever happens between them on the network. If the Finished message that
the client accepted is the one the server made (nobody else has its key), and the hash function has no collision between what the two ends hashed for
it, then they agree on what was negotiated. (Missing: agreement when bytes that are not the client's follow the ClientHello in its record.) -/
theorem C88_client_partial (se : ServerEnv) (ce : ClientEnv) (sreads creads : List Bytes) (ssock csock : Socket) (ss cs : TlsStream) (h : ServerHandshake)
    (h' : Option ClientHandshake) (hcert : se.config.cert.raw.length < 2 ^ 24) (hcl : ∀ c, ce.config.clientCert = some c → c.raw.length < 2 ^ 24)
    (hn : ∀ n, ce.config.serverName = some n → n.length < 2 ^ 24) (hin : csock.incoming.flatten.length < 2 ^ 24)
    (ha : ServerConnection.accept se sreads ssock = (.ok ss, h)) (hc : ClientConnection.connect ce creads csock = (.ok cs, h')) :
    (∃ r context auth fin tail, Accepted se sreads ssock ss r context auth fin tail) ∧ (∃ r', ClientCompleted ce creads csock cs r') ∧
    ∀ r context auth fin tail r', Accepted se sreads ssock ss r context auth fin tail → ClientCompleted ce creads csock cs r' →
      r.before.length < 2 ^ 24 → r.flight.getLast? = some (r'.x.sess.finished .server r'.before) →
      Tls13.NoCollision r.x.sess.hash (r.x.sess.finishedInputs .server r.before) (r'.x.sess.finishedInputs .server r'.before) →
      r.transcript = r'.transcript ∧ Agreed se ce r r' := by
  refine ⟨C42_server_accepts se sreads ssock ss h hcert ha, C45_client_connects ce creads csock cs h' hcl hn hin hc, ?_⟩
  intro r context auth fin tail r' hA hC hl hf hcoll
  have hfin : r.x.sess.finished .server r.before = r'.x.sess.finished .server r'.before ∧ r.transcript = r.before ++ r.x.sess.finished .server r.before := by
    obtain ⟨request, cv, _, _, hfl⟩ := hA.flight
    unfold Exchange.before Exchange.transcript
    rw [hfl, show ∀ (a : List Bytes) (b c d : Bytes), a ++ [b, c, d] = (a ++ [b, c]) ++ [d] by simp] at hf ⊢
    rw [List.getLast?_concat] at hf
    rw [List.dropLast_concat]
    exact ⟨Option.some.inj hf, by simp⟩
  obtain ⟨hm, _⟩ := AgreeProof.finished_inj hfin.1 hcoll
  exact ⟨by rw [hfin.2, hfin.1, hm]; rfl, AgreeProof.agreed_of hA hC (z := []) (z' := []) (by simpa using hm) (by simpa using hl)⟩

/-- C88, as the server sees it: the same when the Finished message that the server accepted is the one the client made. -/
theorem C88_server_partial (se : ServerEnv) (ce : ClientEnv) (sreads creads : List Bytes) (ssock csock : Socket) (ss cs : TlsStream) (h : ServerHandshake)
    (h' : Option ClientHandshake) (hcert : se.config.cert.raw.length < 2 ^ 24) (hcl : ∀ c, ce.config.clientCert = some c → c.raw.length < 2 ^ 24)
    (hn : ∀ n, ce.config.serverName = some n → n.length < 2 ^ 24) (hin : csock.incoming.flatten.length < 2 ^ 24)
    (ha : ServerConnection.accept se sreads ssock = (.ok ss, h)) (hc : ClientConnection.connect ce creads csock = (.ok cs, h')) :
    (∃ r context auth fin tail, Accepted se sreads ssock ss r context auth fin tail) ∧ (∃ r', ClientCompleted ce creads csock cs r') ∧
    ∀ r context auth fin tail r', Accepted se sreads ssock ss r context auth fin tail → ClientCompleted ce creads csock cs r' →
      (r.transcript ++ auth.flatten).length < 2 ^ 24 →
      r.x.sess.finished .client (r.transcript ++ auth.flatten) = r'.x.sess.finished .client (r'.transcript ++ r'.auth.flatten) →
      Tls13.NoCollision r.x.sess.hash (r.x.sess.finishedInputs .client (r.transcript ++ auth.flatten))
        (r'.x.sess.finishedInputs .client (r'.transcript ++ r'.auth.flatten)) →
      r.transcript ++ auth.flatten = r'.transcript ++ r'.auth.flatten ∧ Agreed se ce r r' := by
  refine ⟨C42_server_accepts se sreads ssock ss h hcert ha, C45_client_connects ce creads csock cs h' hcl hn hin hc, ?_⟩
  intro r context auth fin tail r' hA hC hl hf hcoll
  obtain ⟨hm, _⟩ := AgreeProof.finished_inj hf hcoll
  have ht : r.transcript = r.before ++ r.x.sess.finished .server r.before := by
    obtain ⟨request, cv, _, _, hfl⟩ := hA.flight
    unfold Exchange.before Exchange.transcript
    rw [hfl, show ∀ (a : List Bytes) (b c d : Bytes), a ++ [b, c, d] = (a ++ [b, c]) ++ [d] by simp, List.dropLast_concat]
    simp
  refine ⟨hm, ?_⟩
  rw [ht, List.append_assoc] at hm hl
  refine AgreeProof.agreed_of hA hC (z' := r'.x.sess.finished .server r'.before ++ r'.auth.flatten) (hm.trans ?_) hl
  rw [← List.append_assoc]
  rfl

end ATLS
