import Verif.Spec.Channel
import Verif.Proof.Flow
import Verif.Props.StreamRead
import Verif.Props.Stream
import Verif.Props.Server
import Verif.Props.Client
import Verif.Proof.Early
/-
C85: whatever the network does, the application gets what the peer sent, in order.
-/
namespace ATLS
open ATLS.Spec ATLS.Model ATLS.KsProof ATLS.RecProof FlowProof

/-- What the application does with its stream: read into a buffer of some size, or write. -/
inductive Call where
  | read (size : Nat)
  | write (data : Bytes)

/-- The results of the reads among consecutive calls. -/
def readResults : List Call → TlsStream → List (Res TlsError Bytes)
  | [], _ => []
  | .read n :: ns, s => (s.tlsRead n).1 :: readResults ns (s.tlsRead n).2
  | .write data :: ns, s => readResults ns (s.tlsWrite data).2

/-- The data among the results. -/
def delivered (results : List (Res TlsError Bytes)) : List Bytes :=
  results.filterMap fun r => match r with | .ok data => some data | _ => none

/-- The application data (content type 23) among what the peer sent. -/
def applicationData (sent : List (Byte × Bytes)) : List Bytes := (sent.filter fun x => x.1 = 23#8).map Prod.snd

namespace ChannelProof

theorem decrypt_keys {cs : CipherSuite} {p : RecordPayloadProtection} (h : Readable cs p) (r : Record) :
    ∃ q, (p.decrypt r).2 = q ∧ q.cipher = p.cipher ∧ q.isClient = p.isClient ∧ (rKey q = rKey p ∨ rKey q = next (rKey p)) ∧
      ((∃ x, (p.decrypt r).1 = .ok x) → rKey q = next (rKey p)) := by
  unfold RecordPayloadProtection.decrypt
  split
  · exact ⟨_, rfl, rfl, rfl, .inl rfl, by simp⟩
  · obtain ⟨q, hq, hs⟩ := readNonce_eq p h.sizes.2 h.ne
    rw [hq]
    simp only []
    split
    · exact ⟨_, rfl, hs.cipher, hs.isClient, .inr hs.r, by simp⟩
    · exact ⟨_, rfl, hs.cipher, hs.isClient, .inr hs.r, by simp⟩
    · exact ⟨_, rfl, hs.cipher, hs.isClient, .inr hs.r, fun _ => hs.r⟩

theorem writeAll_incoming (s : Socket) (b : Bytes) : (s.writeAll b).2.incoming = s.incoming := by
  unfold Socket.writeAll
  split
  · rfl
  · split <;> rfl

theorem writeNonce_keys {p q : RecordPayloadProtection} {a b : Bytes} (h : p.writeNonce = .ok (a, b, q)) :
    q.cipher = p.cipher ∧ q.isClient = p.isClient ∧ rKey q = rKey p := by
  unfold RecordPayloadProtection.writeNonce at h
  cases hc : p.isClient
  · simp only [hc, Bool.false_eq_true, if_false] at h
    obtain ⟨⟨nonce, k⟩, _, h⟩ := Res.bind_eq_ok.1 h
    cases h
    exact ⟨by simp, by simp [hc], by simp [rKey, hc]⟩
  · simp only [hc, if_true] at h
    obtain ⟨⟨nonce, k⟩, _, h⟩ := Res.bind_eq_ok.1 h
    cases h
    exact ⟨by simp, by simp [hc], by simp [rKey, hc]⟩

theorem tlsWrite_keys {s : TlsStream} {p : RecordPayloadProtection} (hp : s.protection = some p) (data : Bytes) :
    ∃ q, (s.tlsWrite data).2.protection = some q ∧ q.cipher = p.cipher ∧ q.isClient = p.isClient ∧ rKey q = rKey p ∧
      (s.tlsWrite data).2.stream.incoming = s.stream.incoming := by
  unfold TlsStream.tlsWrite RecordPayloadProtection.encrypt
  rw [hp]
  simp only []
  rcases hn : p.writeNonce with ⟨a, b, q⟩ | e | _
  · obtain ⟨h1, h2, h3⟩ := writeNonce_keys hn
    simp only []
    split
    · rename_i heq
      split at heq <;> cases heq <;> exact ⟨_, rfl, h1, h2, h3, rfl⟩
    · rename_i heq
      split at heq <;> cases heq <;> exact ⟨_, rfl, h1, h2, h3, rfl⟩
    · rename_i heq
      split at heq <;> cases heq
      rename_i ct tag _
      have hw := fun b => writeAll_incoming s.stream b
      split
      · rename_i h; exact ⟨_, rfl, h1, h2, h3, (congrArg (fun x => x.2.incoming) h).symm.trans (hw _)⟩
      · rename_i h; exact ⟨_, rfl, h1, h2, h3, (congrArg (fun x => x.2.incoming) h).symm.trans (hw _)⟩
  · exact ⟨_, rfl, rfl, rfl, rfl, rfl⟩
  · exact ⟨_, rfl, rfl, rfl, rfl, rfl⟩

theorem tcpRead_suffix (s : TlsStream) (cap : Nat) : (s.tcpRead cap).2.stream.incoming.flatten <:+ s.stream.incoming.flatten ∧
    (s.tcpRead cap).2.protection = s.protection := by
  unfold TlsStream.tcpRead
  cases hi : s.stream.incoming with
  | nil => simp [hi]
  | cons c cs =>
    simp only []
    have : (if List.drop cap c = [] then cs else List.drop cap c :: cs).flatten <:+ (c :: cs).flatten := by
      split
      · exact ⟨c, by simp⟩
      · exact ⟨c.take cap, by rw [List.flatten_cons, ← List.append_assoc, List.take_append_drop, List.flatten_cons]⟩
    split <;> exact ⟨this, rfl⟩

/-- One `tls_read`: where it leaves the stream. -/
theorem tlsRead_keys {cs : CipherSuite} {s : TlsStream} {p : RecordPayloadProtection} (hp : s.protection = some p) (h : Readable cs p) (n : Nat) :
    ∃ q, (s.tlsRead n).2.protection = some q ∧ q.cipher = p.cipher ∧ q.isClient = p.isClient ∧ (rKey q = rKey p ∨ rKey q = next (rKey p)) ∧
      ((∃ x, (s.tlsRead n).1 = .ok x) → rKey q = next (rKey p)) ∧ (s.tlsRead n).2.stream.incoming.flatten <:+ s.stream.incoming.flatten := by
  obtain ⟨hsuf, hpr⟩ := tcpRead_suffix s 4096
  unfold TlsStream.tlsRead
  rcases ht : s.tcpRead 4096 with ⟨res, s1⟩
  rw [ht] at hsuf hpr
  simp only [hp] at hsuf hpr
  cases res with
  | err e => exact ⟨p, hpr, rfl, rfl, .inl rfl, by simp, hsuf⟩
  | panic => exact ⟨p, hpr, rfl, rfl, .inl rfl, by simp, hsuf⟩
  | ok rx =>
    simp only []
    split
    · exact ⟨p, hpr, rfl, rfl, .inl rfl, by simp, hsuf⟩
    · exact ⟨p, hpr, rfl, rfl, .inl rfl, by simp, hsuf⟩
    · rename_i r _
      split
      · exact ⟨p, hpr, rfl, rfl, .inl rfl, by simp, hsuf⟩
      · rw [hpr]
        obtain ⟨q, h1, h2, h3, h4, h5⟩ := decrypt_keys h r
        simp only []
        rcases hd : p.decrypt r with ⟨res, q'⟩
        rw [hd] at h1 h5
        simp only [] at h1 h5
        subst h1
        cases res with
        | err e => exact ⟨_, rfl, h2, h3, h4, by simp, hsuf⟩
        | panic => exact ⟨_, rfl, h2, h3, h4, by simp, hsuf⟩
        | ok x =>
          simp only []
          split
          · exact ⟨_, rfl, h2, h3, h4, by simp, hsuf⟩
          · exact ⟨_, rfl, h2, h3, h4, fun _ => h5 ⟨_, rfl⟩, hsuf⟩

/-- Data delivered was sent under the current number. -/
theorem tlsRead_sent {cs : CipherSuite} {s : TlsStream} {p : RecordPayloadProtection} (hp : s.protection = some p) (h : Readable cs p)
    {sent : List (Byte × Bytes)} {first last : Nat} (hf : first ≤ (rKey p).sequenceNumber.toNat) (hl : (rKey p).sequenceNumber.toNat < last)
    (hn : Tls13.NoForgery (aead p.cipher) (rKey p).key (rKey p).iv sent first last s.stream.incoming.flatten) (n : Nat) (data : Bytes)
    (hr : (s.tlsRead n).1 = .ok data) : sent[(rKey p).sequenceNumber.toNat]? = some (23#8, data) := by
  obtain ⟨_, rx, header, ct, tag, rest, k, ⟨c, cs', hinc, hrx⟩, hrx', hh, ht, hlen, henc⟩ := C66_read_authentic cs s _ p hp h n data (Prod.ext hr rfl)
  refine hn _ 23#8 data (header ++ ct ++ tag) hf hl (by decide) ?_ ⟨header, ct, tag, k, hh, ht, rfl, ?_, ?_, ?_⟩
  · rw [hinc, List.flatten_cons, ← List.take_append_drop 4096 c, ← hrx, hrx']
    exact ⟨[], rest ++ c.drop 4096 ++ cs'.flatten, by simp⟩
  · rw [hlen]
    have := beNat_lt (header.drop 3)
    rw [List.length_drop, hh] at this
    exact this
  · rw [hlen]
    have hd : (header.drop 3).length = 2 := by rw [List.length_drop, hh]
    rw [← hd, beBytes_beNat]
  · unfold aead
    rw [henc]

theorem next_seq {k : Key} (h : k.sequenceNumber.toNat < 2 ^ 64 - 1) : (next k).sequenceNumber.toNat = k.sequenceNumber.toNat + 1 := by
  show (k.sequenceNumber + 1#64).toNat = _
  rw [BitVec.toNat_add]; simp only [BitVec.toNat_ofNat]; omega

theorem in_order {cs : CipherSuite} (sent : List (Byte × Bytes)) (first last : Nat) (calls : List Call) : ∀ (s : TlsStream) (p : RecordPayloadProtection),
    s.protection = some p → cs.getCipher = .ok p.cipher → KeyOk cs (rKey p) → first ≤ (rKey p).sequenceNumber.toNat →
    (rKey p).sequenceNumber.toNat + (readResults calls s).length ≤ last → last < 2 ^ 64 →
    Tls13.NoForgery (aead p.cipher) (rKey p).key (rKey p).iv sent first last s.stream.incoming.flatten →
    (delivered (readResults calls s)).Sublist (applicationData (sent.drop (rKey p).sequenceNumber.toNat)) ∧
    ((∀ r ∈ readResults calls s, ∃ data, r = .ok data) →
      (sent.drop (rKey p).sequenceNumber.toNat).take (readResults calls s).length = (delivered (readResults calls s)).map fun data => (23#8, data)) := by
  induction calls with
  | nil => intro s p _ _ _ _ _ _ _; exact ⟨List.nil_sublist _, fun _ => by simp [readResults, delivered]⟩
  | cons c ns ih =>
    intro s p hp hc hk hf hl hb hn
    rcases c with n | data
    swap
    · obtain ⟨q, q1, q2, q3, q4, q5⟩ := tlsWrite_keys hp data
      simp only [readResults] at hl
      have := ih _ q q1 (by rw [q2]; exact hc) (by rw [q4]; exact hk) (by rw [q4]; omega) (by rw [q4]; omega) hb (by rw [q2, q4, q5]; exact hn)
      rw [q4] at this
      exact this
    simp only [readResults, List.length_cons] at hl
    have h : Readable cs p := ⟨hc, hk, by omega⟩
    obtain ⟨q, q1, q2, q3, q4, q5, q6⟩ := tlsRead_keys hp h n
    have hseq := next_seq h.seq
    have hqk : (rKey q).key = (rKey p).key ∧ (rKey q).iv = (rKey p).iv ∧ (rKey p).sequenceNumber.toNat ≤ (rKey q).sequenceNumber.toNat ∧
        (rKey q).sequenceNumber.toNat ≤ (rKey p).sequenceNumber.toNat + 1 := by
      rcases q4 with e | e <;> rw [e]
      · exact ⟨rfl, rfl, by omega, by omega⟩
      · exact ⟨rfl, rfl, by omega, by omega⟩
    obtain ⟨k1, k2, k3, k4⟩ := hqk
    obtain ⟨i1, i2⟩ := ih _ q q1 (by rw [q2]; exact hc) ⟨by rw [k1]; exact hk.1, by rw [k2]; exact hk.2⟩ (by omega) (by omega) hb (by
      rw [q2, k1, k2]
      intro seq type content wire a1 a2 a3 a4 a5
      exact hn seq type content wire a1 a2 a3 (a4.trans q6.isInfix) a5)
    have hsub : (applicationData (sent.drop (rKey q).sequenceNumber.toNat)).Sublist (applicationData (sent.drop (rKey p).sequenceNumber.toNat)) := by
      unfold applicationData
      refine (List.Sublist.filter _ ?_).map _
      obtain ⟨d, hd⟩ := Nat.exists_eq_add_of_le k3
      rw [hd, ← List.drop_drop]
      exact List.drop_sublist _ _
    unfold readResults
    rcases hr : (s.tlsRead n).1 with data | e | _
    · have hs := tlsRead_sent hp h hf (by omega) hn n data hr
      have hq : (rKey q).sequenceNumber.toNat = (rKey p).sequenceNumber.toNat + 1 := by rw [q5 ⟨_, hr⟩, hseq]
      have hcons : sent.drop (rKey p).sequenceNumber.toNat = (23#8, data) :: sent.drop (rKey q).sequenceNumber.toNat := by
        rw [hq]
        obtain ⟨hlt, he⟩ := List.getElem?_eq_some_iff.1 hs
        rw [List.drop_eq_getElem_cons hlt, he]
      constructor
      · rw [hcons]
        simp only [applicationData, delivered, List.filterMap_cons, List.filter_cons, decide_true, if_true, List.map_cons]
        exact i1.cons_cons _
      · intro hall
        have := i2 fun r hr => hall r (List.mem_cons_of_mem _ hr)
        rw [hcons, List.length_cons, List.take_succ_cons, this]
        simp [delivered]
    · refine ⟨?_, fun hall => ?_⟩
      · have : delivered (Res.err e :: readResults ns (s.tlsRead n).2) = delivered (readResults ns (s.tlsRead n).2) := by simp [delivered]
        rw [this]; exact i1.trans hsub
      · obtain ⟨d, hd⟩ := hall _ (List.mem_cons_self ..)
        cases hd
    · refine ⟨?_, fun hall => ?_⟩
      · have : delivered (Res.panic :: readResults ns (s.tlsRead n).2) = delivered (readResults ns (s.tlsRead n).2) := by simp [delivered]
        rw [this]; exact i1.trans hsub
      · obtain ⟨d, hd⟩ := hall _ (List.mem_cons_self ..)
        cases hd

end ChannelProof

/-- C85: the application uses a protected stream as it likes, and the network does what it likes to the bytes, short of forging encryptions under
the peer's key. Then the data the reads deliver, over the whole life of the stream and also after errors, is a subsequence of the application data
the peer sent: nothing is repeated, reordered, changed or made up. And as long as no read fails nothing is missing: the results are the contents of
the peer's next records, all of them application data. -/
theorem C85_channel (cs : CipherSuite) (s : TlsStream) (p : RecordPayloadProtection) (hp : s.protection = some p) (hc : cs.getCipher = .ok p.cipher)
    (hk : (rKey p).key.length = cs.getKeyAndIvLen.1 ∧ (rKey p).iv.length = 12) (calls : List Call) (sent : List (Byte × Bytes))
    (hseq : (rKey p).sequenceNumber.toNat + (readResults calls s).length < 2 ^ 64)
    (hn : Tls13.NoForgery (aead p.cipher) (rKey p).key (rKey p).iv sent (rKey p).sequenceNumber.toNat ((rKey p).sequenceNumber.toNat + (readResults calls s).length)
      s.stream.incoming.flatten) :
    (delivered (readResults calls s)).Sublist (applicationData (sent.drop (rKey p).sequenceNumber.toNat)) ∧
    ((∀ r ∈ readResults calls s, ∃ data, r = .ok data) →
      (sent.drop (rKey p).sequenceNumber.toNat).take (readResults calls s).length = (delivered (readResults calls s)).map fun data => (23#8, data)) :=
  ChannelProof.in_order sent _ _ calls s p hp hc hk (Nat.le_refl _) (Nat.le_refl _) hseq hn

namespace ChannelProof

theorem five {l : Bytes} (h : l.length = 5) : ∃ b0 b1 b2 b3 b4 : Byte, l = [b0, b1, b2, b3, b4] := by
  match l, h with
  | [b0, b1, b2, b3, b4], _ => exact ⟨_, _, _, _, _, rfl⟩

theorem poly_inner {key iv inner aad ct tag : Bytes} (hk : key.length = 32) (hiv : iv.length = 12) (h : aead .poly1305 key iv inner aad = some (ct, tag)) :
    Model.ChaCha.encrypt ct key iv 1 = .ok inner ∧ ct.length = inner.length := by
  unfold aead Cipher.encrypt Poly1305.encrypt at h
  rcases hc : Model.ChaCha.encrypt inner key iv 1 with c | e | _
  · rw [hc] at h
    have := ChaChaProof.encrypt_involutive inner c key iv hk hiv 1 hc
    simp only [Res.ok_bind] at h
    split at h
    · rename_i heq
      obtain ⟨_, _, heq⟩ := Res.bind_eq_ok.1 heq
      obtain ⟨_, _, heq⟩ := Res.bind_eq_ok.1 heq
      cases heq
      cases h
      exact this
    · cases h
  · rw [hc] at h; simp at h
  · rw [hc] at h; simp at h

end ChannelProof

/-- The hypotheses of C85 are met: a record with one byte of application data has arrived, and nothing else. -/
example : ∃ (s : TlsStream), s.protection = some (zeroProt true) ∧
    Tls13.NoForgery (aead .poly1305) (zeros 32) (zeros 12) [(23#8, [7#8])] 0 (readResults [.write [1#8], .read 10] s).length s.stream.incoming.flatten ∧
    readResults [.write [1#8], .read 10] s = [.ok [7#8]] := by
  obtain ⟨ct, tag, e1, e2, e3, _⟩ := C15_aead_round_trip .chacha20Poly1305Sha256 .poly1305 rfl (zeros 32) (zeros 12) [7#8, 23#8] (Tls13.protectedHeader 2)
    ⟨by decide, by decide⟩ (by decide)
  have ha : aead .poly1305 (zeros 32) (zeros 12) [7#8, 23#8] (Tls13.protectedHeader 2) = some (ct, tag) := by unfold aead; rw [e1]
  have h0 : Tls13.nonce (zeros 12) 0 = zeros 12 := by decide
  refine ⟨⟨⟨[Tls13.protectedHeader 2 ++ ct ++ tag], [], []⟩, some (zeroProt true), []⟩, rfl, ?_, ?_⟩
  · intro seq type content wire _ h2 h3 h4 h5
    have hs : seq = 0 := by simp [readResults] at h2; exact h2
    subst hs
    obtain ⟨header, ct', tag', padding, g1, g2, g3, g4, g5, g6⟩ := h5
    obtain ⟨pre, post, h4⟩ := h4
    rw [h0] at g6
    obtain ⟨k1, k2⟩ := ChannelProof.poly_inner (by decide) (by decide) g6
    obtain ⟨k3, _⟩ := ChannelProof.poly_inner (by decide) (by decide) ha
    obtain ⟨b0, b1, b2, b3, b4, rfl⟩ : ∃ b0 b1 b2 b3 b4 : Byte, header = [b0, b1, b2, b3, b4] := ChannelProof.five g1
    obtain ⟨c0, c1, rfl⟩ : ∃ c0 c1 : Byte, ct = [c0, c1] := List.length_eq_two.1 e2
    have hl : (pre ++ wire ++ post).length = 23 := by rw [h4]; simp [Tls13.protectedHeader, beBytes, e3]
    rw [g3] at hl h4
    rw [List.flatten_cons, List.flatten_nil, List.append_nil] at h4
    simp only [List.length_append, List.length_cons, List.length_nil, g2, k2] at hl
    simp only [List.length_append, g2, k2, List.length_cons, List.length_nil, List.drop_succ_cons, List.drop_zero, beBytes2] at g5
    have hz : (zeros padding).length = padding := by simp [zeros]
    rw [hz] at hl g5
    have hpre : pre = [] := by
      rcases pre with _ | ⟨a, _ | ⟨a', pre⟩⟩
      · rfl
      · exfalso
        simp only [Tls13.protectedHeader, beBytes2, List.cons_append, List.nil_append, List.cons.injEq, List.append_assoc] at h4 g5
        have : b3 = 18#8 := by rw [h4.2.2.2.2.1]
        rw [this] at g5
        have h' := congrArg BitVec.toNat g5.1
        simp only [BitVec.toNat_ofNat] at h'
        omega
      · exfalso; simp only [List.length_cons] at hl; omega
    subst hpre
    simp only [Tls13.protectedHeader, beBytes2, List.cons_append, List.nil_append, List.cons.injEq, List.append_assoc] at h4 g5
    have : b4 = 18#8 := by rw [h4.2.2.2.2.1]
    rw [this] at g5
    have h' := congrArg BitVec.toNat g5.2.1
    simp only [BitVec.toNat_ofNat] at h'
    have hct : ct' = [c0, c1] := by
      have hlen : ct'.length = 2 := by rw [k2]; simp [hz]; omega
      obtain ⟨d0, d1, rfl⟩ := List.length_eq_two.1 hlen
      · simp only [List.cons_append, List.nil_append, List.cons.injEq] at h4
        rw [h4.2.2.2.2.2.1, h4.2.2.2.2.2.2.1]
    rw [hct, k3] at k1
    have hi := Res.ok.inj k1
    have hle : content.length + padding = 1 := by
      have := congrArg List.length hi
      simp [hz] at this
      omega
    rcases content with _ | ⟨x, _ | ⟨y, content⟩⟩
    · exfalso
      have : padding = 1 := by simpa using hle
      rw [this] at hi
      simp only [zeros, List.replicate, List.cons_append, List.nil_append, List.cons.injEq] at hi
      exact absurd hi.2.1 (by decide)
    · have : padding = 0 := by simpa using hle
      rw [this] at hi
      simp only [zeros, List.replicate, List.cons_append, List.nil_append, List.cons.injEq, List.append_nil] at hi
      rw [← hi.1, ← hi.2.1]
      rfl
    · exfalso; simp only [List.length_cons] at hle; omega
  · obtain ⟨s1, hs1⟩ : ∃ s1, s1 = (TlsStream.tlsWrite ⟨⟨[Tls13.protectedHeader 2 ++ ct ++ tag], [], []⟩, some (zeroProt true), []⟩ [1#8]).2 := ⟨_, rfl⟩
    obtain ⟨q, q1, q2, q3, q4, q5⟩ := ChannelProof.tlsWrite_keys (s := ⟨⟨[Tls13.protectedHeader 2 ++ ct ++ tag], [], []⟩, some (zeroProt true), []⟩) rfl [1#8]
    show [(TlsStream.tlsRead _ 10).1] = _
    rw [← hs1] at q1 q5 ⊢
    obtain ⟨r, p', r1, r2, r3, r4, r5⟩ := EarlyProof.opens_key (cs := .chacha20Poly1305Sha256) (p := q) (by rw [q2]; rfl) (by rw [q4]; exact ⟨by decide, by decide⟩)
      (by rw [q4]; decide) (t := .applicationData) (by decide) (content := [7#8]) (wire := Tls13.protectedHeader 2 ++ ct ++ tag)
      ⟨ct, tag, 0, by decide, rfl, by rw [q2, q4]; exact ha⟩
    have hne : Tls13.protectedHeader 2 ++ ct ++ tag ≠ [] := by simp [Tls13.protectedHeader]
    have hlen : (Tls13.protectedHeader 2 ++ ct ++ tag).length ≤ 4096 := by simp [Tls13.protectedHeader, beBytes, e2, e3]
    unfold TlsStream.tlsRead TlsStream.tcpRead
    rw [q5]
    simp only [List.take_of_length_le hlen, hne, if_false, r1, r3, ne_eq, not_true_eq_false, q1, r4]
    rfl

/-- C85 from the end of the handshake on, for the server: whatever the network does, the reads on the stream `accept` returned deliver what was sent
under the client's application traffic key of RFC 8446 for this handshake. -/
theorem C85_server (env : ServerEnv) (reads : List Bytes) (sock : Socket) (s : TlsStream) (h : ServerHandshake)
    (hc : env.config.cert.raw.length < 2 ^ 24) (ha : ServerConnection.accept env reads sock = (.ok s, h)) :
    ∃ r context auth fin tail, Accepted env reads sock s r context auth fin tail ∧ ∀ (calls : List Call) (sent : List (Byte × Bytes)), (readResults calls s).length < 2 ^ 64 →
      Tls13.NoForgery (aead r.x.c) (r.x.sess.appKey r.transcript .client) (r.x.sess.appIv r.transcript .client) sent 0 (readResults calls s).length s.stream.incoming.flatten →
      (delivered (readResults calls s)).Sublist (applicationData sent) ∧
      ((∀ x ∈ readResults calls s, ∃ data, x = .ok data) →
        sent.take (readResults calls s).length = (delivered (readResults calls s)).map fun data => (23#8, data)) := by
  obtain ⟨r, context, auth, fin, tail, hA⟩ := C42_server_accepts env reads sock s h hc ha
  refine ⟨r, context, auth, fin, tail, hA, fun calls sent hl hn => ?_⟩
  obtain ⟨p, h1, h2, h3, h4⟩ := hA.keys
  obtain ⟨_, _, _, _, _, _, _, _, _, _, _, _, _, _, _, _, _, _, _, hcs, _⟩ := hA.answered
  have hk := EarlyProof.appKey_sizes r.x r.transcript .client
  have e0 : (r.x.appKey r.transcript .client).sequenceNumber.toNat = 0 := rfl
  have := C85_channel r.x.cs s p h1 (by rw [h2]; exact hcs) (by rw [h4]; exact hk) calls sent (by rw [h4, e0, Nat.zero_add]; exact hl) (by
    rw [h2, h4, e0, Nat.zero_add]
    exact hn)
  rw [h4, e0, List.drop_zero] at this
  exact this

/-- C85 for the client. -/
theorem C85_client (env : ClientEnv) (reads : List Bytes) (sock : Socket) (s : TlsStream) (h : Option ClientHandshake)
    (hcl : ∀ c, env.config.clientCert = some c → c.raw.length < 2 ^ 24) (hname : ∀ n, env.config.serverName = some n → n.length < 2 ^ 24)
    (hin : sock.incoming.flatten.length < 2 ^ 24) (hw : ClientConnection.connect env reads sock = (.ok s, h)) :
    ∃ r, ClientCompleted env reads sock s r ∧ ∀ (calls : List Call) (sent : List (Byte × Bytes)), (readResults calls s).length < 2 ^ 64 →
      Tls13.NoForgery (aead r.x.c) (r.x.sess.appKey r.transcript .server) (r.x.sess.appIv r.transcript .server) sent 0 (readResults calls s).length s.stream.incoming.flatten →
      (delivered (readResults calls s)).Sublist (applicationData sent) ∧
      ((∀ x ∈ readResults calls s, ∃ data, x = .ok data) →
        sent.take (readResults calls s).length = (delivered (readResults calls s)).map fun data => (23#8, data)) := by
  obtain ⟨r, hr⟩ := C45_client_connects env reads sock s h hcl hname hin hw
  refine ⟨r, hr, fun calls sent hl hn => ?_⟩
  obtain ⟨p, h1, h2, h3, h4⟩ := hr.keys
  obtain ⟨_, _, _, _, _, _, _, _, _, _, _, hcs, _⟩ := hr.answered
  have hk := EarlyProof.appKey_sizes r.x r.transcript .server
  have e0 : (r.x.appKey r.transcript .server).sequenceNumber.toNat = 0 := rfl
  have := C85_channel r.x.cs s p h1 (by rw [h2]; exact hcs) (by rw [h4]; exact hk) calls sent (by rw [h4, e0, Nat.zero_add]; exact hl) (by
    rw [h2, h4, e0, Nat.zero_add]
    exact hn)
  rw [h4, e0, List.drop_zero] at this
  exact this

end ATLS
