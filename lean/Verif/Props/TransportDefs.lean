import Verif.Props.Writing
/-
Streams that carry application data as C86 and C89 say.
-/
namespace ATLS
open ATLS.Spec ATLS.Model ATLS.KsProof ATLS.RecProof FlowProof RfcProof

namespace RfcProof

theorem compress_length {n : Nat} (P : Sha2.Params n) (H : List (BitVec n)) (b : Bytes) (h : H.length = 8) : (Sha2.compress P H b).length = 8 := by
  simp [Sha2.compress, Sha2.toList, h]

theorem fold_length {n : Nat} (P : Sha2.Params n) : ∀ (bs : List Bytes) (H : List (BitVec n)), H.length = 8 → (bs.foldl (Sha2.compress P) H).length = 8
  | [], _, h => h
  | b :: bs, H, h => fold_length P bs _ (compress_length P H b h)

theorem words_length {n : Nat} (k : Nat) (ws : List (BitVec n)) : (ws.flatMap fun w => beBytes k w.toNat).length = ws.length * k := by
  induction ws with
  | nil => simp
  | cons w ws ih => rw [List.flatMap_cons, List.length_append, ih, beBytes_length, List.length_cons, Nat.succ_mul, Nat.add_comm]

theorem rfc_length (t : HashType) (m : Bytes) : ((rfcHash t).H m).length = (rfcHash t).out := by
  cases t with
  | sha256 =>
    show (Sha2.hash Sha2.P256 m).length = 32
    unfold Sha2.hash
    rw [words_length, List.length_take, fold_length _ _ _ (by decide +kernel)]
    rfl
  | sha384 =>
    show (Sha2.hash Sha2.P384 m).length = 48
    unfold Sha2.hash
    rw [words_length, List.length_take, fold_length _ _ _ (by decide +kernel)]
    rfl

end RfcProof

/-- The stream writes with the secret `own` and reads with the secret `peer` of the suite, both from sequence number 0. -/
structure Transport (code : Nat) (u : Tls13.Suite) (s : TlsStream) (own peer : Bytes) : Prop where
  writes : WritesTo code u s own 0
  reads : ReadsFrom code u s peer 0
  ownSize : own.length = u.hash.out
  peerSize : peer.length = u.hash.out

namespace ChannelProof

theorem transport {x : Params} {s : TlsStream} {p : RecordPayloadProtection} {m : Bytes} {own peer : Tls13.Side} (ht : x.cs.getTshash = .ok x.t) (hc : x.cs.getCipher = .ok x.c)
    (hp : s.protection = some p) (hpc : p.cipher = x.c) (hw : wKey p = x.appKey m own) (hr : rKey p = x.appKey m peer) :
    ∃ u, (x.cs.asU16, u) ∈ Tls13.suites ∧ u.hash = x.sess.hash ∧ u.keyLength = x.sess.keyLength ∧
      Transport x.cs.asU16 u s (x.sess.appSecret m own) (x.sess.appSecret m peer) := by
  have h3 : x.cs ∈ [CipherSuite.aes128GcmSha256, .aes256GcmSha384, .chacha20Poly1305Sha256] := by
    cases hcs : x.cs <;> rw [hcs] at hc <;> first | (simp; done) | cases hc
  obtain ⟨u, t, c, hmem, hlib⟩ := suite_lib h3
  have et : t = x.t := by have := hlib.tshash; rw [ht] at this; exact (Res.ok.inj this).symm
  subst et
  have eh : u.hash = rfcHash x.t := hlib.hash.symm
  have ek : u.keyLength = x.cs.getKeyAndIvLen.1 := hlib.keyLength.symm
  have len : ∀ side, (x.sess.appSecret m side).length = u.hash.out := by
    intro side
    rw [eh]
    have h1 := master_le x
    have h2 := out_le x.t
    have h3 : ((rfcHash x.t).H m).length ≤ 64 := by rw [rfc_length]; omega
    cases side
    · exact (expandQ_eq x.t (Tls13.masterSecret (rfcHash x.t) x.ecdhe) "c ap traffic" ((rfcHash x.t).H m) (rfcHash x.t).out (by omega) (by simp [String.length]; omega) (by omega)).2
    · exact (expandQ_eq x.t (Tls13.masterSecret (rfcHash x.t) x.ecdhe) "s ap traffic" ((rfcHash x.t).H m) (rfcHash x.t).out (by omega) (by simp [String.length]; omega) (by omega)).2
  refine ⟨u, hmem, eh, ek, ⟨hmem, p, x.cs, hp, hlib.parsed, by rw [hpc]; exact hc, ?_, ?_, ?_⟩, ⟨hmem, p, x.cs, hp, hlib.parsed, by rw [hpc]; exact hc, ?_, ?_, ?_⟩, len own, len peer⟩
  · rw [hw, eh, ek]; rfl
  · rw [hw, eh]; rfl
  · rw [hw]; rfl
  · rw [hr, eh, ek]; rfl
  · rw [hr, eh]; rfl
  · rw [hr]; rfl

/-- The code of a suite determines it. -/
theorem suite_unique {code : Nat} {u v : Tls13.Suite} (h : (code, u) ∈ Tls13.suites) (h' : (code, v) ∈ Tls13.suites) : u = v := by
  simp only [Tls13.suites, List.mem_cons, Prod.mk.injEq, List.not_mem_nil, or_false] at h h'
  rcases h with ⟨rfl, rfl⟩ | ⟨rfl, rfl⟩ | ⟨rfl, rfl⟩ <;> rcases h' with ⟨h, rfl⟩ | ⟨h, rfl⟩ | ⟨h, rfl⟩ <;> first | rfl | (exact absurd h (by decide))

theorem lib_transport {x : Params} {code : Nat} {u : Tls13.Suite} {s : TlsStream} {p : RecordPayloadProtection} {m : Bytes} {own peer : Tls13.Side}
    (hl : LibSuite code u x.cs x.t x.c) (hu : (code, u) ∈ Tls13.suites) (hp : s.protection = some p) (hpc : p.cipher = x.c) (hw : wKey p = x.appKey m own)
    (hr : rKey p = x.appKey m peer) : Transport code u s (x.sess.appSecret m own) (x.sess.appSecret m peer) := by
  obtain ⟨u', h1, _, _, h4⟩ := transport hl.tshash hl.cipher hp hpc hw hr
  rw [hl.asU16] at h1 h4
  rw [suite_unique hu h1]
  exact h4

end ChannelProof

/-- What the peer of a stream gets and what the application gets from it, as far as C86 and C89 go: the results of reading, once per record, what an RFC 8446 peer
with the secret `peer` sends, and the records of RFC 8446 under the secret `own` on the wire after any calls. -/
def Carries (code : Nat) (u : Tls13.Suite) (s : TlsStream) (own peer : Bytes) : Prop :=
  (∀ (sendings : List Tls13.Sending) (size : Nat), Tls13.Sends u peer 0 sendings s.stream.incoming → (∀ x ∈ sendings, x.content.length ≤ size) →
    sendings.length < 2 ^ 63 → Plain code sendings s.stream.incoming →
    readResults (List.replicate sendings.length (.read size)) s = sendings.map expectedRead) ∧
  (∀ calls : List Call, s.stream.failures = [] → (payloads calls).length < 2 ^ 63 → Short code (payloads calls) →
    (∀ x ∈ writeResults calls s, x = .ok ()) ∧ ∃ records, Tls13.Sends u own 0 ((payloads calls).map .data) records ∧
      List.Forall₂ (fun w d => w.length = d.length + 22) records (payloads calls) ∧ (afterCalls calls s).stream.written = s.stream.written ++ records.flatten)

theorem Transport.carries {code : Nat} {u : Tls13.Suite} {s : TlsStream} {own peer : Bytes} (h : Transport code u s own peer) : Carries code u s own peer := by
  refine ⟨fun sendings size h1 h2 h3 h4 => C86_results code u size peer h.peerSize sendings s 0 _ h.reads h1 rfl h2 (by omega) h4, fun calls h1 h2 h3 => ?_⟩
  obtain ⟨a, records, b, c, d, _⟩ := C89_records code u own h.ownSize calls s 0 h.writes h1 (by omega) h3
  exact ⟨a, records, b, c, d⟩

end ATLS
