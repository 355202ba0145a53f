import Verif.Spec.Replay
import Verif.Props.AgreementKeys
import Verif.Props.Joint
import Verif.Props.Random
import Verif.Props.Closing
import Verif.Props.Offer
import Verif.Props.AgreementExample
/-
C116: a recorded handshake cannot be replayed to a server.
-/
namespace ATLS
open ATLS.Model ATLS.Spec ATLS.RecProof FlowProof

/-- What the two handshakes would have to have in common by accident: a hash collision in the Finished messages or on the way to their keys, or a record
that is valid under both handshake keys of the client. -/
def Coincidence (r r' : Exchange) (auth auth' : List Bytes) (received : Bytes) : Prop :=
  Tls13.Collision r.x.sess.hash (r.x.sess.finishedInputs .client (r.transcript ++ auth.flatten)) (r'.x.sess.finishedInputs .client (r'.transcript ++ auth'.flatten)) ∨
  Tls13.Collision r.x.sess.hash (r.x.sess.keyInputs .client) (r'.x.sess.keyInputs .client) ∨
  ∃ w seq, w <:+: received ∧ Tls13.Ambiguous (aead r.x.c) (aead r'.x.c) (r.x.sess.key .client) (r'.x.sess.key .client) (r.x.sess.iv .client) (r'.x.sess.iv .client) seq w

namespace ReplayProof

theorem noCollision {h : Hash} {a b : List Bytes} (hn : ¬ Tls13.Collision h a b) : Tls13.NoCollision h a b := by
  intro p hp he
  by_contra hne
  exact hn ⟨p, hp, hne, he⟩

theorem fold_length (aes : Model.Aes.AES) (H : BitVec 128) (iv : Bytes) (Yi : BitVec 128) (enc : Bool) (data : Bytes) :
    ∀ (l : List Nat) (s s' : Nat × BitVec 128 × Bytes), (∀ i ∈ l, (Model.Gcm.slice16 data i).length ≤ 16) →
      l.foldlM (Model.Gcm.dataStep (ε := TlsError) aes H iv Yi enc data) s = .ok s' →
      s'.2.2.length = s.2.2.length + ((l.map fun i => Model.Gcm.slice16 data i).flatten).length := by
  intro l
  induction l with
  | nil => intro s s' _ h; cases h; simp
  | cons i l ih =>
    rintro ⟨n, X, out⟩ s' hl h
    rw [List.foldlM_cons] at h
    obtain ⟨s1, h1, h2⟩ := Res.bind_eq_ok.1 h
    have := ih s1 s' (fun j hj => hl j (by simp [hj])) h2
    rw [this]
    unfold Model.Gcm.dataStep at h1
    simp only [] at h1
    obtain ⟨Y, _, h1⟩ := Res.bind_eq_ok.1 h1
    rw [← Res.ok.inj h1]
    have := hl i (by simp)
    simp only [List.length_append, List.length_drop, GcmProof.u128ToBytesBe_length, List.map_cons, List.flatten_cons]
    omega

theorem gcm_length {key iv p aad c t : Bytes} (h : Model.Gcm.encrypt key iv p aad = .ok (c, t)) : c.length = p.length := by
  unfold Model.Gcm.encrypt Model.Gcm.gcm at h
  obtain ⟨_, _, h⟩ := Res.bind_eq_ok.1 h
  obtain ⟨_, _, h⟩ := Res.bind_eq_ok.1 h
  obtain ⟨⟨n, X, out⟩, h1, h⟩ := Res.bind_eq_ok.1 h
  simp only [Res.ok.injEq, Prod.mk.injEq] at h
  obtain ⟨rfl, _⟩ := h
  have := fold_length _ _ _ _ _ _ _ _ _ (fun i hi => by
    have hm : Model.Gcm.slice16 p i ∈ chunks 16 p := by
      rw [← GcmProof.stepBy16_map]
      exact List.mem_map_of_mem hi
    exact (GcmProof.chunks_length _ _ hm).1) h1
  rw [GcmProof.stepBy16_map] at this
  simpa [chunks_flatten] using this

/-- What a key opens has one content only. -/
theorem aead_inj {x : Params} (hx : x.cs.getCipher = .ok x.c) (side : Tls13.Side) (seq : Nat) {p p' aad c t : Bytes} (ha : aad.length = 5) (hc : c.length < 2 ^ 16)
    (h : aead x.c (x.sess.key side) (Tls13.nonce (x.sess.iv side) seq) p aad = some (c, t))
    (h' : aead x.c (x.sess.key side) (Tls13.nonce (x.sess.iv side) seq) p' aad = some (c, t)) : p = p' := by
  have hk : SuiteKeys x.cs (x.sess.key side) (Tls13.nonce (x.sess.iv side) seq) := suiteKeys (hsKey_sizes x side 0) seq
  have conv : ∀ q, aead x.c (x.sess.key side) (Tls13.nonce (x.sess.iv side) seq) q aad = some (c, t) →
      x.c.encrypt (x.sess.key side) (Tls13.nonce (x.sess.iv side) seq) q aad = .ok (c, t) := by
    intro q hq
    unfold aead at hq
    split at hq
    · rename_i heq; rw [heq]; exact congrArg Res.ok (Option.some.inj hq)
    · cases hq
  have h := conv _ h
  have h' := conv _ h'
  generalize x.sess.key side = key at *
  generalize Tls13.nonce (x.sess.iv side) seq = n at *
  generalize x.cs = cs, x.c = ci at *
  have gcm : (key.length = 16 ∨ key.length = 24 ∨ key.length = 32) → n.length = 12 → ∀ cs', (Cipher.gcm cs').encrypt key n p aad = .ok (c, t) →
      (Cipher.gcm cs').encrypt key n p' aad = .ok (c, t) → p = p' := by
    intro h1 h2 cs' e e'
    have l := gcm_length (show Model.Gcm.encrypt key n p aad = .ok (c, t) from e)
    have l' := gcm_length (show Model.Gcm.encrypt key n p' aad = .ok (c, t) from e')
    have d := (CipherProof.gcm_inverse key n p c aad t h1 h2 (by omega) (by omega) (by omega)).2 e
    have d' := (CipherProof.gcm_inverse key n p' c aad t h1 h2 (by omega) (by omega) (by omega)).2 e'
    exact Res.ok.inj (d.symm.trans d')
  cases cs <;> simp only [CipherSuite.getCipher, Res.ok.injEq, reduceCtorEq] at hx <;> subst hx <;> simp only [SuiteKeys, CipherSuite.getKeyAndIvLen] at hk
  · exact gcm (Or.inr (Or.inr hk.1)) hk.2 _ h h'
  · exact Res.ok.inj (((CipherProof.poly_inverse key n p c aad t hk.1 hk.2).2 h).symm.trans ((CipherProof.poly_inverse key n p' c aad t hk.1 hk.2).2 h'))
  · exact gcm (Or.inl hk.1) hk.2 _ h h'

theorem carries_inj {x : Params} (hx : x.cs.getCipher = .ok x.c) {side : Tls13.Side} {seq : Nat} {content content' w : Bytes}
    (h : Tls13.Carries (aead x.c) (x.sess.key side) (x.sess.iv side) seq 22#8 content w)
    (h' : Tls13.Carries (aead x.c) (x.sess.key side) (x.sess.iv side) seq 22#8 content' w) : content = content' := by
  obtain ⟨hd, ct, tag, pad, h1, h2, h3, h4, h5, h6⟩ := h
  obtain ⟨hd', ct', tag', pad', k1, k2, k3, k4, k5, k6⟩ := h'
  rw [h3, List.append_assoc, List.append_assoc] at k3
  obtain ⟨e1, e2⟩ := List.append_inj k3 (by omega)
  obtain ⟨e3, e4⟩ := List.append_inj' e2 (by omega)
  subst e1 e3 e4
  have := aead_inj hx side seq h1 (by simp only [List.length_append] at h4; omega) h6 k6
  exact (ChannelProof.inner_unique (by decide) (by decide) this).1

theorem not_ccs {w : Bytes} (h : Tls13.OtherRecord w) (h' : ∃ c, Tls13.IsRecord 20#8 c w) : False := by
  obtain ⟨t, c, ht, hr⟩ := h
  obtain ⟨c', hr'⟩ := h'
  have e := (JointProof.record_head hr).symm.trans (JointProof.record_head hr')
  simp only [Option.some.injEq] at e
  rw [e] at ht
  simp at ht

/-- Two readings of the same bytes as the same number of contents go record by record; the last record carries the last content of both. -/
theorem lockstep {a a' : Tls13.Seal} {k k' iv iv' : Bytes} {seq : Nat} {cs : List Bytes} {w : Bytes} (h : Tls13.Carried a k iv seq cs w) :
    ∀ {cs' : List Bytes} {w' y y' : Bytes}, Tls13.Carried a' k' iv' seq cs' w' → w ++ y = w' ++ y' → cs.length = cs'.length →
      ∀ {l l' : List Bytes} {f f' : Bytes}, cs = l ++ [f] → cs' = l' ++ [f'] → ∃ v, v <:+: w ∧ Tls13.Carries a k iv (seq + l.length) 22#8 f v ∧
        Tls13.Carries a' k' iv' (seq + l.length) 22#8 f' v := by
  induction h with
  | nil seq => intro cs' w' y y' _ _ _ l l' f f' hl _; simp at hl
  | ccs seq cs c w rest h1 h2 ih =>
    intro cs' w' y y' h' he hn l l' f f' hl hl'
    cases h' with
    | nil => simp at hn; rw [hn] at hl; simp at hl
    | ccs _ _ c' v' rest' g1 g2 =>
      rw [List.append_assoc, List.append_assoc] at he
      obtain ⟨rfl, he2⟩ := JointProof.record_prefix h1 g1 he
      obtain ⟨v, hv, e⟩ := ih g2 he2 hn hl hl'
      exact ⟨v, hv.trans (List.suffix_append ..).isInfix, e⟩
    | cons _ _ _ v' rest' g1 g2 g3 =>
      obtain ⟨t, c', ht, hr⟩ := id g2
      rw [List.append_assoc, List.append_assoc] at he
      obtain ⟨rfl, _⟩ := JointProof.record_prefix h1 hr he
      exact (not_ccs g2 ⟨_, h1⟩).elim
  | cons seq m cs w rest h1 h2 h3 ih =>
    intro cs' w' y y' h' he hn l l' f f' hl hl'
    obtain ⟨t, c0, ht, hr⟩ := id h2
    cases h' with
    | nil => simp at hn
    | ccs _ _ c' v' rest' g1 g2 =>
      rw [List.append_assoc, List.append_assoc] at he
      obtain ⟨rfl, _⟩ := JointProof.record_prefix hr g1 he
      exact (not_ccs h2 ⟨_, g1⟩).elim
    | cons _ m' cs'' v' rest' g1 g2 g3 =>
      obtain ⟨t', c', ht', hr'⟩ := id g2
      rw [List.append_assoc, List.append_assoc] at he
      obtain ⟨rfl, he2⟩ := JointProof.record_prefix hr hr' he
      cases l with
      | nil =>
        simp only [List.nil_append, List.cons.injEq] at hl
        obtain ⟨rfl, rfl⟩ := hl
        cases cs'' with
        | cons _ _ => simp at hn
        | nil =>
          cases l' with
          | cons _ _ => simp at hl'
          | nil =>
            simp only [List.nil_append, List.cons.injEq] at hl'
            obtain ⟨rfl, _⟩ := hl'
            exact ⟨w, (List.prefix_append ..).isInfix, h1, g1⟩
      | cons m0 l =>
        simp only [List.cons_append, List.cons.injEq] at hl
        cases l' with
        | nil =>
          simp only [List.nil_append, List.cons.injEq] at hl'
          rw [hl.2, hl'.2] at hn
          simp at hn
        | cons m1 l' =>
          simp only [List.cons_append, List.cons.injEq] at hl'
          obtain ⟨v, hv, e1, e2⟩ := ih g3 he2 (by simpa using hn) hl.2 hl'.2
          have e : seq + 1 + l.length = seq + (m0 :: l).length := by simp; omega
          rw [e] at e1 e2
          exact ⟨v, hv.trans (List.suffix_append ..).isInfix, e1, e2⟩

theorem auth_length {env : ServerEnv} {x : Params} {context : Option Bytes} {m : Bytes} {auth : List Bytes} (h : ClientAuth env x context m auth) :
    auth.length = if env.config.clientCertCa.isSome then 2 else 0 := by
  unfold ClientAuth at h
  cases hc : env.config.clientCertCa with
  | none => rw [hc] at h; simp [h]
  | some ca =>
    rw [hc] at h
    obtain ⟨_, _, _, rfl, _⟩ := h
    simp

theorem bytes_length {reads : List Bytes} {b : Bytes} {rng : Rng} (h : ((Rng.urandom reads).bytes 32 : Res TlsError (Bytes × Rng)) = .ok (b, rng)) : b.length = 32 := by
  cases reads with
  | nil => cases h
  | cons a rest =>
    unfold Rng.bytes readFromUrandom at h
    simp only [] at h
    split at h
    · simp only [Res.ok_bind] at h
      unfold slice at h
      split at h
      · cases h
        simp; omega
      · cases h
    · cases h

/-- The random value stands in the ServerHello. -/
theorem hello_random {env : ServerEnv} {reads : List Bytes} {x : Params} {ch sh ccs : Bytes} (h : HelloAnswered env reads x ch sh ccs) :
    ∃ a rest, reads = a :: rest ∧ (a.take 32).length = 32 ∧ (sh.drop 6).take 32 = a.take 32 := by
  obtain ⟨_, hs, hello, answer, pk, share, body, _, _, _, h1, h2, h3, _⟩ := h
  unfold ServerHello.fromClientHello at h1
  obtain ⟨⟨random, rng1⟩, e1, h1⟩ := Res.bind_eq_ok.1 h1
  have hl := bytes_length e1
  obtain ⟨a, rest, rfl, rfl, rfl⟩ := RandomProof.bytes_one e1
  refine ⟨a, rest, rfl, hl, ?_⟩
  have hr : answer.random = a.take 32 := by
    simp only [] at h1
    split at h1
    · cases h1
    · obtain ⟨s, e2, h1'⟩ := Res.bind_eq_ok.1 h1
      clear h1
      split at h1'
      · cases h1'
      · obtain ⟨cs, _, h1'⟩ := Res.bind_eq_ok.1 h1'
        obtain ⟨key, e3, h1'⟩ := Res.bind_eq_ok.1 h1'
        cases h1'
        rfl
  unfold ServerHello.asBytes at h2
  obtain ⟨exts, _, h2⟩ := Res.bind_eq_ok.1 h2
  have h2 := Res.ok.inj h2
  rw [h3, ← h2, hr]
  unfold Tls13.handshakeMessage
  simp only [List.append_assoc]
  rw [show ∀ (b c : Bytes) (n : Nat), [2#8] ++ (beBytes 3 n ++ ([3#8, 3#8] ++ (b ++ c))) = ([2#8] ++ beBytes 3 n ++ [3#8, 3#8]) ++ (b ++ c) by intros; simp,
    List.drop_left' (by simp [beBytes_length]), List.take_left' hl]

end ReplayProof

open ReplayProof

/-- C116: two handshakes, with a server that asks for client certificates in both or in neither, receive the same bytes (in whatever reads) and both
complete. Then the server has sent the same ServerHello in both, and they have the same shared secret and transcript, or there was a coincidence. -/
theorem C116_replay (env env' : ServerEnv) (hca : env'.config.clientCertCa.isSome = env.config.clientCertCa.isSome) (reads reads' : List Bytes)
    (sock sock' : Socket) (s s' : TlsStream) (h h' : ServerHandshake) (hc : env.config.cert.raw.length < 2 ^ 24) (hc' : env'.config.cert.raw.length < 2 ^ 24)
    (ha : ServerConnection.accept env reads sock = (.ok s, h)) (ha' : ServerConnection.accept env' reads' sock' = (.ok s', h'))
    (hin : sock'.incoming.flatten = sock.incoming.flatten) :
    ∃ r context auth fin tail r' context' auth' fin' tail', Accepted env reads sock s r context auth fin tail ∧
      Accepted env' reads' sock' s' r' context' auth' fin' tail' ∧ r.ch = r'.ch ∧
      (r.sh = r'.sh ∧ r.x.ecdhe = r'.x.ecdhe ∧ r.transcript ++ auth.flatten = r'.transcript ++ auth'.flatten ∨ Coincidence r r' auth auth' sock.incoming.flatten) := by
  obtain ⟨r, context, auth, fin, tail, A⟩ := C42_server_accepts env reads sock s h hc ha
  obtain ⟨r', context', auth', fin', tail', A'⟩ := C42_server_accepts env' reads' sock' s' h' hc' ha'
  obtain ⟨recv, e1, wire, rfl, e2⟩ := A.received
  obtain ⟨recv', e1', wire', rfl, e2'⟩ := A'.received
  rw [e1'] at hin
  have he := hin.symm
  rw [e1] at he
  simp only [List.append_assoc] at he
  have hch : r.ch = r'.ch := OfferProof.record_unique A.hello A'.hello he
  obtain ⟨hrec, he2⟩ := JointProof.record_prefix A.hello A'.hello he
  refine ⟨r, context, auth, fin, tail, r', context', auth', fin', tail', A, A', hch, ?_⟩
  obtain ⟨v, hv, c1, c2⟩ := lockstep e2 e2' he2 (by
    rw [List.length_append, List.length_append, auth_length A.authenticated, auth_length A'.authenticated, hca]; rfl) rfl rfl
  have hv2 : v <:+: sock.incoming.flatten := hv.trans (by
    rw [e1]
    exact ⟨r.chRec, tail ++ s.stream.incoming.flatten, by simp⟩)
  by_cases hamb : aead r.x.c = aead r'.x.c ∧ r.x.sess.key .client = r'.x.sess.key .client ∧ r.x.sess.iv .client = r'.x.sess.iv .client
  · by_cases hcol : Tls13.Collision r.x.sess.hash (r.x.sess.finishedInputs .client (r.transcript ++ auth.flatten)) (r'.x.sess.finishedInputs .client (r'.transcript ++ auth'.flatten))
    · exact .inr (.inl hcol)
    by_cases hcol2 : Tls13.Collision r.x.sess.hash (r.x.sess.keyInputs .client) (r'.x.sess.keyInputs .client)
    · exact .inr (.inr (.inl hcol2))
    left
    obtain ⟨q1, q2, q3⟩ := hamb
    rw [← q1, ← q2, ← q3] at c2
    obtain ⟨_, hx⟩ := A.answered
    obtain ⟨_, _, _, _, _, _, _, _, _, _, _, _, _, _, _, _, _, _, hx, hhel⟩ := hx
    obtain ⟨_, hx'⟩ := A'.answered
    obtain ⟨_, _, _, _, _, _, _, _, _, _, _, _, _, _, _, _, _, _, hx', hhel'⟩ := hx'
    have hf := carries_inj hx c1 c2
    obtain ⟨z, hz⟩ := A.finished
    obtain ⟨z', hz'⟩ := A'.finished
    rw [hz, hz'] at hf
    have hb : ∀ (x : Params) (m : Bytes), (Tls13.verifyData (rfcHash x.t) (x.sess.secret .client) m).length < 2 ^ 24 := fun x m => by
      unfold Tls13.verifyData
      rw [AgreeProof.hmac_len]
      have := out_le x.t
      omega
    have hfin := AgreeProof.message_inj hf (hb _ _) (hb _ _)
    obtain ⟨m1, m2, m3, m4⟩ := AgreeProof.session_inj (x := r.x) (x' := r'.x) (side := .client) (m := r.transcript ++ auth.flatten) (m' := r'.transcript ++ auth'.flatten) (by
      unfold Tls13.Session.finished
      rw [hfin.1, hfin.2.1]) (noCollision hcol) (noCollision hcol2)
    rw [hhel, hhel', hch] at m3
    exact ⟨List.append_cancel_left m3, m4, m1⟩
  · right; right; right
    refine ⟨v, _, hv2, ?_, ⟨_, c1⟩, ⟨_, c2⟩⟩
    by_contra hcon
    push Not at hcon
    exact hamb ⟨hcon.1, hcon.2.1, hcon.2.2⟩

/-- C116: a server that draws another random value the second time does not complete a handshake with what it received the first time, short of a
coincidence. -/
theorem C116_fresh (env env' : ServerEnv) (hca : env'.config.clientCertCa.isSome = env.config.clientCertCa.isSome) (a a' : Bytes) (reads reads' : List Bytes)
    (sock sock' : Socket) (s : TlsStream) (h : ServerHandshake) (hc : env.config.cert.raw.length < 2 ^ 24) (hc' : env'.config.cert.raw.length < 2 ^ 24)
    (ha : ServerConnection.accept env (a :: reads) sock = (.ok s, h)) (hin : sock'.incoming.flatten = sock.incoming.flatten) (hne : a.take 32 ≠ a'.take 32) :
    (∀ s' h', ServerConnection.accept env' (a' :: reads') sock' ≠ (.ok s', h')) ∨
    ∃ s' r context auth fin tail r' context' auth' fin' tail', Accepted env (a :: reads) sock s r context auth fin tail ∧
      Accepted env' (a' :: reads') sock' s' r' context' auth' fin' tail' ∧ Coincidence r r' auth auth' sock.incoming.flatten := by
  by_contra hcon
  push Not at hcon
  obtain ⟨⟨s', h', ha'⟩, hcon⟩ := hcon
  obtain ⟨r, context, auth, fin, tail, r', context', auth', fin', tail', A, A', _, ⟨e, _⟩ | e⟩ :=
    C116_replay env env' hca _ _ sock sock' s s' h h' hc hc' ha ha' hin
  · obtain ⟨b, _, e1, _, e2⟩ := hello_random A.answered
    obtain ⟨b', _, e1', _, e2'⟩ := hello_random A'.answered
    cases e1
    cases e1'
    exact (hne (by rw [← e2, ← e2', e])).elim
  · exact hcon s' r context auth fin tail r' context' auth' fin' tail' A A' e

/-- The example server, with client authentication, run twice with the same random bytes and the same input meets the hypotheses of `C116_replay`; there is no
coincidence of a handshake with itself, so it is the first alternative that holds. -/
example : (∃ env reads sock s h, ServerConnection.accept env reads sock = (.ok s, h) ∧ env.config.clientCertCa.isSome ∧ env.config.cert.raw.length < 2 ^ 24) ∧
    ∀ r auth received, ¬ Coincidence r r auth auth received := by
  constructor
  · obtain ⟨se, _, sr, _, so, _, ss, _, h, _, _, _, _, _, _, e1, _, e2, _, _, e3, _⟩ := C88_example
    exact ⟨se, sr, so, ss, h, e1, e2, e3⟩
  · have hs : ∀ (H : Hash) (l : List Bytes), ¬ Tls13.Collision H l l := by
      rintro H l ⟨p, hp, hne, _⟩
      rw [List.zip_eq_zipWith, List.zipWith_self] at hp
      obtain ⟨b, _, rfl⟩ := List.mem_map.1 hp
      exact hne rfl
    rintro r auth received (h | h | ⟨_, _, _, h, _⟩)
    · exact hs _ _ h
    · exact hs _ _ h
    · simp at h

/-- The example server, with client authentication, also meets the hypotheses of `C116_fresh`, with every bit of the first random read changed the second time. -/
example : ∃ (env : ServerEnv) (a a' : Bytes) (reads : List Bytes) (sock : Socket) (s : TlsStream) (h : ServerHandshake), ServerConnection.accept env (a :: reads) sock = (.ok s, h) ∧ env.config.clientCertCa.isSome ∧
    env.config.cert.raw.length < 2 ^ 24 ∧ a.take 32 ≠ a'.take 32 ∧ a'.length = a.length := by
  obtain ⟨se, _, sr, _, so, _, ss, _, h, _, r, _, _, _, _, e1, _, e2, A, _, e3, _⟩ := C88_example
  obtain ⟨a, rest, rfl, hl, _⟩ := hello_random A.answered
  refine ⟨se, a, a.map (~~~ ·), rest, so, ss, h, e1, e2, e3, fun he => ?_, by simp⟩
  cases a with
  | nil => simp at hl
  | cons b a =>
    simp only [List.map_cons, List.take_succ_cons, List.cons.injEq] at he
    have := he.1
    bv_omega

end ATLS
