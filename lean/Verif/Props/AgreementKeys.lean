import Verif.Props.AgreementExample
/-
C88: the two ends use the same keys.
-/
namespace ATLS
open ATLS.Model ATLS.Spec FlowProof RfcProof

namespace AgreeProof

/-- An HMAC without collisions is for one key and one text. -/
theorem hmac_inj {t : HashType} {k k' m m' : Bytes} (hk : k.length = (rfcHash t).out) (hk' : k'.length = (rfcHash t).out)
    (hc : Tls13.NoCollision (rfcHash t) (Tls13.macInputs (rfcHash t) k m) (Tls13.macInputs (rfcHash t) k' m'))
    (h : hmac (rfcHash t) k m = hmac (rfcHash t) k' m') : k = k' ∧ m = m' := by
  have h0 : (rfcHash t).out ≤ (rfcHash t).block := by cases t <;> decide
  have e1 : hmacKey (rfcHash t) k = k ++ zeros ((rfcHash t).block - (rfcHash t).out) := by
    unfold hmacKey
    simp only []
    rw [if_neg (by omega), hk]
  have e2 : hmacKey (rfcHash t) k' = k' ++ zeros ((rfcHash t).block - (rfcHash t).out) := by
    unfold hmacKey
    simp only []
    rw [if_neg (by omega), hk']
  unfold Tls13.NoCollision Tls13.macInputs at hc
  unfold Spec.hmac at h
  simp only [List.zip_cons_cons, List.zip_nil_left, List.mem_cons, List.not_mem_nil, or_false, forall_eq_or_imp, forall_eq] at hc
  obtain ⟨c1, c2⟩ := hc
  have hkl : (hmacKey (rfcHash t) k).length = (hmacKey (rfcHash t) k').length := by rw [hmacKey_length, hmacKey_length]
  obtain ⟨h2, h3⟩ := List.append_inj (c2 h) (by simp only [List.length_map, hkl])
  obtain ⟨_, h4⟩ := List.append_inj (c1 h3) (by simp only [List.length_map, hkl])
  have h5 := mapXor_inj h2
  rw [e1, e2] at h5
  exact ⟨List.append_cancel_right h5, h4⟩

/-- Expanding to the length of the hash is one HMAC. -/
theorem expand_eq (t : HashType) (secret : Bytes) (label : String) (context : Bytes) :
    Tls13.expandLabel (rfcHash t) secret label context (rfcHash t).out =
      hmac (rfcHash t) secret (Tls13.hkdfLabel (rfcHash t).out label context ++ [1#8]) := by
  have h1 : ((rfcHash t).out + (rfcHash t).out - 1) / (rfcHash t).out = 1 := by cases t <;> decide
  unfold Tls13.expandLabel hkdfExpand hkdfTs
  rw [h1]
  have : (List.range 1).flatMap (fun i => hkdfT (rfcHash t) secret (Tls13.hkdfLabel (rfcHash t).out label context) (i + 1)) =
      hmac (rfcHash t) secret (Tls13.hkdfLabel (rfcHash t).out label context ++ [1#8]) := by
    simp [List.range_succ, hkdfT]
  rw [this, List.take_of_length_le]
  unfold Spec.hmac
  rw [rfc_length]

theorem hmac_len (t : HashType) (k m : Bytes) : (hmac (rfcHash t) k m).length = (rfcHash t).out := by
  unfold Spec.hmac
  rw [rfc_length]

theorem NoCollision_append {h : Hash} {a a' b b' : List Bytes} (hl : a.length = a'.length) (hc : Tls13.NoCollision h (a ++ b) (a' ++ b')) :
    Tls13.NoCollision h a a' ∧ Tls13.NoCollision h b b' := by
  unfold Tls13.NoCollision at hc ⊢
  rw [List.zip_append hl] at hc
  exact ⟨fun p hp => hc p (List.mem_append_left _ hp), fun p hp => hc p (List.mem_append_right _ hp)⟩

/-- Without collisions equal Finished messages are by ends with the same hellos and the same shared secret. -/
theorem session_inj {x x' : Params} {m m' : Bytes} {side : Tls13.Side} (h : x.sess.finished side m = x'.sess.finished side m')
    (hc : Tls13.NoCollision x.sess.hash (x.sess.finishedInputs side m) (x'.sess.finishedInputs side m'))
    (hk : Tls13.NoCollision x.sess.hash (x.sess.keyInputs side) (x'.sess.keyInputs side)) :
    m = m' ∧ x.t = x'.t ∧ x.hellos = x'.hellos ∧ x.ecdhe = x'.ecdhe := by
  obtain ⟨hm, ht⟩ := finished_inj h hc
  refine ⟨hm, ht, ?_⟩
  obtain ⟨t, cs, c, z, hel⟩ := x
  obtain ⟨t', cs', c', z', hel'⟩ := x'
  simp only [] at ht
  subst ht
  simp only [Params.sess] at h hc hk
  have h := (message_inj (x := []) (y := []) (by simpa [Tls13.Session.finished] using h) (by
    unfold Tls13.verifyData
    rw [hmac_len]
    have := out_le t
    omega) (by
    unfold Tls13.verifyData
    rw [hmac_len]
    have := out_le t
    omega)).2.1
  unfold Tls13.verifyData at h
  have fl : ∀ s, (Tls13.finishedKey (rfcHash t) s).length = (rfcHash t).out := fun s => by
    unfold Tls13.finishedKey
    rw [expand_eq, hmac_len]
  have hc' : Tls13.NoCollision (rfcHash t) ([m] ++ Tls13.macInputs (rfcHash t) _ ((rfcHash t).H m)) ([m'] ++ Tls13.macInputs (rfcHash t) _ ((rfcHash t).H m')) := hc
  obtain ⟨k1, _⟩ := hmac_inj (fl _) (fl _) (NoCollision_append (a := [m]) (a' := [m']) rfl hc').2 h
  unfold Tls13.finishedKey at k1
  rw [expand_eq, expand_eq] at k1
  unfold Tls13.Session.keyInputs at hk
  simp only [] at hk
  rw [← List.singleton_append, ← List.singleton_append (x := hel')] at hk
  obtain ⟨n1, n2⟩ := NoCollision_append (a := [hel]) (a' := [hel']) rfl hk
  obtain ⟨n2, n3⟩ := NoCollision_append (by simp [Tls13.macInputs]) n2
  obtain ⟨n4, n5⟩ := NoCollision_append (by simp [Tls13.macInputs]) n2
  have sl : ∀ z hel, (Tls13.Session.secret ⟨rfcHash t, 0, z, hel⟩ side).length = (rfcHash t).out := fun z hel => by
    unfold Tls13.Session.secret Tls13.handshakeTrafficSecret Tls13.deriveSecret
    cases side <;> simp only [] <;> rw [expand_eq, hmac_len]
  obtain ⟨k2, _⟩ := hmac_inj (sl _ _) (sl _ _) n3 k1
  have k3 : hmac (rfcHash t) (Tls13.handshakeSecret (rfcHash t) z)
      (Tls13.hkdfLabel (rfcHash t).out (Tls13.handshakeLabel side) ((rfcHash t).H hel) ++ [1#8]) =
      hmac (rfcHash t) (Tls13.handshakeSecret (rfcHash t) z')
      (Tls13.hkdfLabel (rfcHash t).out (Tls13.handshakeLabel side) ((rfcHash t).H hel') ++ [1#8]) := by
    unfold Tls13.Session.secret Tls13.handshakeTrafficSecret Tls13.deriveSecret at k2
    cases side <;> simp only [] at k2 ⊢ <;> rw [expand_eq, expand_eq] at k2 <;> exact k2
  obtain ⟨k4, k5⟩ := hmac_inj (hmac_len t _ _) (hmac_len t _ _) n5 k3
  have k6 := (List.append_inj' k5 rfl).1
  unfold Tls13.hkdfLabel at k6
  rw [rfc_length, rfc_length] at k6
  have k7 := List.append_cancel_left (List.append_cancel_left k6)
  refine ⟨n1 (hel, hel') (by simp) k7, ?_⟩
  refine (hmac_inj ?_ ?_ n4 k4).2 <;> (unfold Tls13.deriveSecret; rw [expand_eq, hmac_len])

end AgreeProof

/-- The two streams fit together: what one writes the other can read, in both directions. -/
def Fitting (ss cs : TlsStream) : Prop :=
  ∃ p q, ss.protection = some p ∧ cs.protection = some q ∧ p.cipher = q.cipher ∧ RecProof.wKey p = RecProof.rKey q ∧ RecProof.wKey q = RecProof.rKey p

/-- The two ends share their secrets: the hellos (as they were hashed), the shared secret and the transcript through the server's Finished are the same, and
so are the handshake traffic secrets and the application traffic secrets of both directions. The certificate the client checked is the server's. With the
same suite the streams fit together. -/
structure Shared (se : ServerEnv) (ce : ClientEnv) (ss cs : TlsStream) (r : Exchange) (r' : ClientRun) : Prop where
  hellos : r.x.hellos = r'.x.hellos
  ecdhe : r.x.ecdhe = r'.x.ecdhe
  transcript : r.transcript = r'.transcript
  handshake : ∀ side, r.x.sess.secret side = r'.x.sess.secret side
  application : ∀ side, r.x.sess.appSecret r.transcript side = r'.x.sess.appSecret r'.transcript side
  certificate : ∃ x, ServerCertificateShown ce (certificateMsg se.config.cert) se.config.cert.raw x
  streams : r.x.cs = r'.x.cs → Fitting ss cs

namespace AgreeProof

theorem same_of {se : ServerEnv} {ce : ClientEnv} {sreads creads : List Bytes} {ssock csock : Socket} {ss cs : TlsStream} {r : Exchange} {context : Option Bytes}
    {auth : List Bytes} {fin tail : Bytes} {r' : ClientRun} (ha : Accepted se sreads ssock ss r context auth fin tail) (hc : ClientCompleted ce creads csock cs r')
    {z z' : Bytes} (hm : r.before ++ z = r'.before ++ z') (hl : (r.before ++ z).length < 2 ^ 24) (ht : r.x.t = r'.x.t) (hh : r.x.hellos = r'.x.hellos)
    (hz : r.x.ecdhe = r'.x.ecdhe) : Shared se ce ss cs r r' := by
  have hash : r.x.sess.hash = r'.x.sess.hash := by
    show rfcHash r.x.t = rfcHash r'.x.t
    rw [ht]
  have hsec : ∀ side, r.x.sess.secret side = r'.x.sess.secret side := by
    intro side
    unfold Tls13.Session.secret
    rw [hash, show r.x.sess.ecdhe = r'.x.sess.ecdhe from hz, show r.x.sess.hellos = r'.x.sess.hellos from hh]
  have hm' := hm
  unfold Exchange.before ClientRun.before at hm'
  rw [hh, List.append_assoc, List.append_assoc] at hm'
  obtain ⟨hcert, hsame⟩ := certificate_of ha hc (List.append_cancel_left hm') (by
    unfold Exchange.before at hl
    simp only [List.length_append] at hl ⊢
    omega)
  have hbef : r.before = r'.before := by
    unfold Exchange.before ClientRun.before
    rw [hh, hsame]
  have htr : r.transcript = r'.transcript := by
    have h1 : r.transcript = r.before ++ r.x.sess.finished .server r.before := by
      obtain ⟨request, cv, _, _, hfl⟩ := ha.flight
      unfold Exchange.before Exchange.transcript
      rw [hfl, show ∀ (a : List Bytes) (b c d : Bytes), a ++ [b, c, d] = (a ++ [b, c]) ++ [d] by simp, List.dropLast_concat]
      simp
    have h2 : r'.transcript = r'.before ++ r'.x.sess.finished .server r'.before := rfl
    rw [h1, h2, hbef]
    unfold Tls13.Session.finished
    rw [hsec, hash]
  have happ : ∀ side, r.x.sess.appSecret r.transcript side = r'.x.sess.appSecret r'.transcript side := by
    intro side
    unfold Tls13.Session.appSecret
    rw [hash, show r.x.sess.ecdhe = r'.x.sess.ecdhe from hz, htr]
  refine ⟨hh, hz, htr, hsec, happ, hcert, fun hcs => ?_⟩
  obtain ⟨p, p1, p2, p3, p4⟩ := ha.keys
  obtain ⟨q, q1, q2, q3, q4⟩ := hc.keys
  have hcc : r.x.c = r'.x.c := by
    obtain ⟨_, _, _, _, _, _, _, _, _, _, _, _, _, _, _, _, _, _, _, e, _⟩ := ha.answered
    obtain ⟨_, _, _, _, _, _, _, _, _, _, _, e', _⟩ := hc.answered
    rw [hcs, e'] at e
    exact (Res.ok.inj e).symm
  have hkey : ∀ side, r.x.appKey r.transcript side = r'.x.appKey r'.transcript side := by
    intro side
    unfold Params.appKey
    rw [happ, ht, hcs]
  exact ⟨p, q, p1, q1, by rw [p2, q2, hcc], by rw [p3, q4, hkey], by rw [q3, p4, hkey]⟩

end AgreeProof

/-- C88, the keys, as the client sees it. If in addition the hash function has no collision between what the two ends hashed on the way to their keys, then
the two ends share all their secrets and the client has checked the server's certificate, whatever bytes were added to the hellos; and if they use the same
suite, as `C88_client_partial` says when nothing was added to the ClientHello, then each can read what the other writes. -/
theorem C88_client_keys (se : ServerEnv) (ce : ClientEnv) (sreads creads : List Bytes) (ssock csock : Socket) (ss cs : TlsStream) (r : Exchange)
    (context : Option Bytes) (auth : List Bytes) (fin tail : Bytes) (r' : ClientRun) (hA : Accepted se sreads ssock ss r context auth fin tail)
    (hC : ClientCompleted ce creads csock cs r') (hl : r.before.length < 2 ^ 24) (hf : r.flight.getLast? = some (r'.x.sess.finished .server r'.before))
    (hcoll : Tls13.NoCollision r.x.sess.hash (r.x.sess.finishedInputs .server r.before) (r'.x.sess.finishedInputs .server r'.before))
    (hkeys : Tls13.NoCollision r.x.sess.hash (r.x.sess.keyInputs .server) (r'.x.sess.keyInputs .server)) : Shared se ce ss cs r r' := by
  have hfin : r.x.sess.finished .server r.before = r'.x.sess.finished .server r'.before := by
    obtain ⟨request, cv, _, _, hfl⟩ := hA.flight
    unfold Exchange.before
    rw [hfl, show ∀ (a : List Bytes) (b c d : Bytes), a ++ [b, c, d] = (a ++ [b, c]) ++ [d] by simp] at hf ⊢
    rw [List.getLast?_concat] at hf
    rw [List.dropLast_concat]
    exact Option.some.inj hf
  obtain ⟨hm, ht, hh, hz⟩ := AgreeProof.session_inj hfin hcoll hkeys
  exact AgreeProof.same_of hA hC (z := []) (z' := []) (by simpa using hm) (by simpa using hl) ht hh hz

/-- C88, the keys, as the server sees it: the same when the Finished message that the server accepted is the one the client made. -/
theorem C88_server_keys (se : ServerEnv) (ce : ClientEnv) (sreads creads : List Bytes) (ssock csock : Socket) (ss cs : TlsStream) (r : Exchange)
    (context : Option Bytes) (auth : List Bytes) (fin tail : Bytes) (r' : ClientRun) (hA : Accepted se sreads ssock ss r context auth fin tail)
    (hC : ClientCompleted ce creads csock cs r') (hl : (r.transcript ++ auth.flatten).length < 2 ^ 24)
    (hf : r.x.sess.finished .client (r.transcript ++ auth.flatten) = r'.x.sess.finished .client (r'.transcript ++ r'.auth.flatten))
    (hcoll : Tls13.NoCollision r.x.sess.hash (r.x.sess.finishedInputs .client (r.transcript ++ auth.flatten))
      (r'.x.sess.finishedInputs .client (r'.transcript ++ r'.auth.flatten)))
    (hkeys : Tls13.NoCollision r.x.sess.hash (r.x.sess.keyInputs .client) (r'.x.sess.keyInputs .client)) :
    Shared se ce ss cs r r' ∧ auth.flatten = r'.auth.flatten := by
  obtain ⟨hm, ht, hh, hz⟩ := AgreeProof.session_inj hf hcoll hkeys
  have htr : r.transcript = r.before ++ r.x.sess.finished .server r.before := by
    obtain ⟨request, cv, _, _, hfl⟩ := hA.flight
    unfold Exchange.before Exchange.transcript
    rw [hfl, show ∀ (a : List Bytes) (b c d : Bytes), a ++ [b, c, d] = (a ++ [b, c]) ++ [d] by simp, List.dropLast_concat]
    simp
  have hm1 := hm
  rw [htr, List.append_assoc] at hm1 hl
  have S : Shared se ce ss cs r r' := AgreeProof.same_of hA hC (z' := r'.x.sess.finished .server r'.before ++ r'.auth.flatten) (hm1.trans (by
    rw [← List.append_assoc]
    rfl)) hl ht hh hz
  refine ⟨S, ?_⟩
  rw [S.transcript] at hm
  exact List.append_cancel_left hm

end ATLS
