import Verif.Props.Writing
/-
C100: how the application learns that the peer has closed the connection.
-/
namespace ATLS
open ATLS.Spec ATLS.Model ATLS.KsProof ATLS.RecProof FlowProof RfcProof

/-- The alert close_notify (RFC 8446, section 6.1): content type and content of its record. -/
def closeNotify : Byte × Bytes := (21#8, [1#8, 0#8])

/-- C100 for peers whose records satisfy `P`. The application calls `tls_read` and `tls_write` on a protected stream as it likes, and the network does what
it likes to the bytes, short of forging encryptions under the peer's key. When the reads have given `datas` and then the error UnexpectedMessage, the
peer has sent `datas` and then close_notify: it has closed the connection, and no data is missing. -/
def C100_for (P : List (Byte × Bytes) → Prop) : Prop :=
  ∀ (cs : CipherSuite) (s : TlsStream) (p : RecordPayloadProtection) (calls : List Call) (sent : List (Byte × Bytes)) (datas : List Bytes),
    s.protection = some p → cs.getCipher = .ok p.cipher → (rKey p).key.length = cs.getKeyAndIvLen.1 ∧ (rKey p).iv.length = 12 →
    (rKey p).sequenceNumber.toNat + (readResults calls s).length < 2 ^ 64 →
    Tls13.Authentic (aead p.cipher) (rKey p).key (rKey p).iv sent (rKey p).sequenceNumber.toNat ((rKey p).sequenceNumber.toNat + (readResults calls s).length)
      s.stream.incoming.flatten →
    P sent → readResults calls s = datas.map .ok ++ [.err .unexpectedMessage] →
    ∃ rest, sent.drop (rKey p).sequenceNumber.toNat = datas.map (fun data => (23#8, data)) ++ closeNotify :: rest

/-- C100 in full. -/
def C100_statement : Prop := C100_for fun _ => True

namespace ChannelProof

theorem decrypt_errors {cs : CipherSuite} {p : RecordPayloadProtection} (h : Readable cs p) (r : Record) : (p.decrypt r).1 ≠ .err .unexpectedMessage := by
  unfold RecordPayloadProtection.decrypt
  split
  · simp
  · obtain ⟨q, hq, hs⟩ := readNonce_eq p h.sizes.2 h.ne
    rw [hq]
    simp only []
    split
    · simp
    · simp
    · rename_i plaintext _
      simp only []
      have : ∀ n, RecordPayloadProtection.scanType plaintext n ≠ .err .unexpectedMessage := by
        intro n
        induction n with
        | zero => simp [RecordPayloadProtection.scanType]
        | succ n ih =>
          unfold RecordPayloadProtection.scanType idx
          cases plaintext[n]? with
          | none => simp
          | some b =>
            simp only [Res.ok_bind]
            split
            · unfold RecordType.new
              split_ifs <;> simp
            · exact ih
      intro hc
      rcases hsc : RecordPayloadProtection.scanType plaintext plaintext.length with ⟨t, n⟩ | e | _
      · rw [hsc] at hc; cases hc
      · rw [hsc] at hc
        simp only [Res.err_bind, Res.err.injEq] at hc
        rw [hc] at hsc
        exact this _ hsc
      · rw [hsc] at hc; cases hc

theorem fromRaw_errors (rx : Bytes) : Record.fromRaw rx ≠ .err .unexpectedMessage := by
  intro h
  match rx, h with
  | [], h | [_], h | [_, _], h | [_, _, _], h | [_, _, _, _], h => simp [Record.fromRaw] at h
  | b0 :: b1 :: b2 :: b3 :: b4 :: rest, h =>
    unfold Record.fromRaw at h
    rw [if_neg (by simp)] at h
    simp only [idx, List.getElem?_cons_zero, List.getElem?_cons_succ, Res.ok_bind] at h
    have ht : ∀ e, RecordType.new b0 = .err e → e = TlsError.decodeError := by
      intro e he
      unfold RecordType.new at he
      split_ifs at he
      exact (Res.err.inj he).symm
    rcases hb : RecordType.new b0 with ty | e | _
    · rw [hb] at h
      simp only [Res.ok_bind] at h
      split at h
      · cases h
      · unfold slice at h
        split at h
        · simp only [Res.ok_bind] at h
          split at h <;> cases h
        · cases h
    · rw [hb, ht e hb] at h
      cases h
    · rw [hb] at h
      cases h

theorem inner_unique {a b : Bytes} {x y : Byte} (hx : x ≠ 0#8) (hy : y ≠ 0#8) : ∀ {m n : Nat}, a ++ [x] ++ zeros m = b ++ [y] ++ zeros n → a = b ∧ x = y
  | 0, 0, h => by
    have h : a ++ [x] = b ++ [y] := by simpa [zeros] using h
    have := List.append_inj' h rfl
    exact ⟨this.1, by simpa using this.2⟩
  | m + 1, n + 1, h => by
    have e : ∀ k, zeros (k + 1) = zeros k ++ [0#8] := fun k => List.replicate_succ'
    rw [e, e, ← List.append_assoc, ← List.append_assoc (b ++ [y])] at h
    exact inner_unique hx hy (List.append_inj' h rfl).1
  | 0, n + 1, h => by
    have e : ∀ k, zeros (k + 1) = zeros k ++ [0#8] := fun k => List.replicate_succ'
    rw [e, ← List.append_assoc] at h
    have h : a ++ [x] = b ++ [y] ++ zeros n ++ [0#8] := by simpa [zeros] using h
    exact absurd (by simpa using (List.append_inj' h rfl).2) hx
  | m + 1, 0, h => by
    have e : ∀ k, zeros (k + 1) = zeros k ++ [0#8] := fun k => List.replicate_succ'
    rw [e, ← List.append_assoc] at h
    have h : a ++ [x] ++ zeros m ++ [0#8] = b ++ [y] := by simpa [zeros] using h
    exact absurd (by simpa using (List.append_inj' h rfl).2.symm) hy

/-- A read that gives UnexpectedMessage has met an encryption of the peer that is not application data. -/
theorem tlsRead_other {cs : CipherSuite} {s : TlsStream} {p : RecordPayloadProtection} (hp : s.protection = some p) (h : Readable cs p)
    {sent : List (Byte × Bytes)} {first last : Nat} (hf : first ≤ (rKey p).sequenceNumber.toNat) (hl : (rKey p).sequenceNumber.toNat < last)
    (hn : Tls13.Authentic (aead p.cipher) (rKey p).key (rKey p).iv sent first last s.stream.incoming.flatten) (n : Nat)
    (hr : (s.tlsRead n).1 = .err .unexpectedMessage) : ∃ type content, type ≠ 23#8 ∧ sent[(rKey p).sequenceNumber.toNat]? = some (type, content) := by
  unfold TlsStream.tlsRead at hr
  rcases ht : s.tcpRead 4096 with ⟨rx | e | _, s1⟩
  · obtain ⟨⟨c, cs', hinc, hrx0⟩, hpr⟩ := tcpRead_inv s s1 4096 rx ht
    rw [ht] at hr
    simp only [] at hr
    rcases hfr : Record.fromRaw rx with ⟨m, r⟩ | e | _
    · rw [hfr] at hr
      obtain ⟨b0, b1, b2, b3, b4, rest, hrx, hhd, _, hlen, hflen, _⟩ := fromRaw_inv rx m r hfr
      simp only [hflen, ne_eq, not_true_eq_false, if_false, hpr, hp] at hr
      have hne := decrypt_errors h r
      rcases hd : p.decrypt r with ⟨⟨t, pl⟩ | e | _, p'⟩
      · rw [hd] at hr
        simp only [] at hr
        by_cases hty : t = .applicationData
        · rw [if_neg (not_not.2 hty)] at hr
          simp only [] at hr
          unfold TlsStream.deliver at hr
          split at hr <;> cases hr
        · have b3lt := b3.isLt
          have b4lt := b4.isLt
          obtain ⟨ct, tag, inner, e1, e2, e3, e4, e5⟩ := C62_only_authentic cs p p' h r ⟨by rw [hhd]; rfl, by rw [hflen, hlen]; omega⟩ _ _ hd
          have hb : beNat (r.header.drop 3) = (ct ++ tag).length := by rw [← e1, hflen, hlen, hhd]; simp [beNat]
          have hd2 : (r.header.drop 3).length = 2 := by rw [hhd]; rfl
          have hin : r.header ++ ct ++ tag <:+: s.stream.incoming.flatten := by
            rw [hinc, List.flatten_cons, ← List.take_append_drop 4096 c, ← hrx0, hrx, e1]
            exact ⟨[], rest ++ c.drop 4096 ++ cs'.flatten, by simp⟩
          obtain ⟨type, content, padding, k1, k2, k3⟩ := hn _ inner (r.header ++ ct ++ tag) hf hl hin ⟨r.header, ct, tag, by rw [hhd]; rfl, e2, rfl,
            by rw [← e1, hflen, hlen]; omega, by rw [← hb, ← hd2, beBytes_beNat], by unfold aead; rw [e3]⟩
          refine ⟨type, content, ?_, k3⟩
          rintro rfl
          apply hty
          rcases e5 with ⟨hi, k, e5⟩ | ⟨hi, _, k, e5⟩
          · have hc := (inner_unique (by decide) (by cases t <;> first | exact absurd rfl hi | decide) (k2.symm.trans e5)).2
            cases t <;> first | rfl | exact absurd hc (by decide)
          · have : (23#8 : Byte) ∈ zeros k := by rw [← e5, k2]; simp
            exact absurd (List.eq_of_mem_replicate this) (by decide)
      · rw [hd] at hr hne
        simp only [] at hr hne
        exact absurd hr (by simpa using hne)
      · rw [hd] at hr
        cases hr
    · rw [hfr] at hr
      exact absurd (hfr.trans (by simpa using hr)) (fromRaw_errors rx)
    · rw [hfr] at hr
      cases hr
  · rw [ht] at hr
    unfold TlsStream.tcpRead at ht
    cases hi : s.stream.incoming with
    | nil => rw [hi] at ht; cases ht; cases hr
    | cons c cs' =>
      rw [hi] at ht
      simp only [] at ht
      split at ht <;> cases ht
      cases hr
  · rw [ht] at hr
    cases hr

theorem authentic_carried {a : Tls13.Seal} {key iv : Bytes} {sent : List (Byte × Bytes)} {first last : Nat} {stream : Bytes}
    (h : Tls13.Authentic a key iv sent first last stream) : Tls13.NoForgery a key iv sent first last stream := by
  intro seq type content wire h1 h2 h3 h4 ⟨header, ct, tag, padding, g1, g2, g3, g4, g5, g6⟩
  obtain ⟨type', content', padding', k1, k2, k3⟩ := h seq _ wire h1 h2 h4 ⟨header, ct, tag, g1, g2, g3, g4, g5, g6⟩
  obtain ⟨rfl, rfl⟩ := inner_unique h3 k1 k2
  exact k3

theorem drop_cons {sent : List (Byte × Bytes)} {n : Nat} {x : Byte × Bytes} (h : sent[n]? = some x) : sent.drop n = x :: sent.drop (n + 1) := by
  obtain ⟨hlt, he⟩ := List.getElem?_eq_some_iff.1 h
  rw [List.drop_eq_getElem_cons hlt, he]

theorem ended {cs : CipherSuite} (sent : List (Byte × Bytes)) (first last : Nat) (calls : List Call) : ∀ (s : TlsStream) (p : RecordPayloadProtection) (datas : List Bytes),
    s.protection = some p → cs.getCipher = .ok p.cipher → KeyOk cs (rKey p) → first ≤ (rKey p).sequenceNumber.toNat →
    (rKey p).sequenceNumber.toNat + (readResults calls s).length ≤ last → last < 2 ^ 64 →
    Tls13.Authentic (aead p.cipher) (rKey p).key (rKey p).iv sent first last s.stream.incoming.flatten →
    readResults calls s = datas.map .ok ++ [.err .unexpectedMessage] →
    ∃ type content rest, type ≠ 23#8 ∧ sent.drop (rKey p).sequenceNumber.toNat = datas.map (fun data => (23#8, data)) ++ (type, content) :: rest := by
  induction calls with
  | nil => intro s p datas _ _ _ _ _ _ _ h; simp [readResults] at h
  | cons c ns ih =>
    intro s p datas hp hc hk hf hl hb hn hres
    rcases c with n | data
    swap
    · obtain ⟨q, q1, q2, q3, q4, q5⟩ := tlsWrite_keys hp data
      simp only [readResults] at hl hres
      have := ih _ q datas q1 (by rw [q2]; exact hc) (by rw [q4]; exact hk) (by rw [q4]; omega) (by rw [q4]; omega) hb (by rw [q2, q4, q5]; exact hn) hres
      rw [q4] at this
      exact this
    simp only [readResults, List.length_cons] at hl hres
    have h : Readable cs p := ⟨hc, hk, by omega⟩
    obtain ⟨q, q1, q2, q3, q4, q5, q6⟩ := tlsRead_keys hp h n
    have hseq := next_seq h.seq
    cases datas with
    | nil =>
      obtain ⟨hr, _⟩ := List.cons.inj hres
      obtain ⟨type, content, k1, k2⟩ := tlsRead_other hp h hf (by omega) hn n hr
      exact ⟨type, content, _, k1, drop_cons k2⟩
    | cons data datas =>
      obtain ⟨hr, hrest⟩ := List.cons.inj hres
      have hq := q5 ⟨_, hr⟩
      have hs := tlsRead_sent hp h hf (by omega) (authentic_carried hn) n data hr
      obtain ⟨type, content, rest, k1, k2⟩ := ih _ q datas q1 (by rw [q2]; exact hc) (by rw [hq]; exact hk) (by rw [hq]; omega) (by rw [hq]; omega) hb (by
        rw [q2, hq]
        intro seq inner wire a1 a2 a3 a4
        exact hn seq inner wire a1 a2 (a3.trans q6.isInfix) a4) hrest
      refine ⟨type, content, rest, k1, ?_⟩
      rw [drop_cons hs, List.map_cons, List.cons_append, ← k2, hq, hseq]

end ChannelProof

/-- C100 for every peer: when the reads have given `datas` and then UnexpectedMessage, the peer has sent `datas` and then a record that is not application
data. -/
theorem C100_nothing_missing (cs : CipherSuite) (s : TlsStream) (p : RecordPayloadProtection) (calls : List Call) (sent : List (Byte × Bytes)) (datas : List Bytes)
    (hp : s.protection = some p) (hc : cs.getCipher = .ok p.cipher) (hk : (rKey p).key.length = cs.getKeyAndIvLen.1 ∧ (rKey p).iv.length = 12)
    (hseq : (rKey p).sequenceNumber.toNat + (readResults calls s).length < 2 ^ 64)
    (hn : Tls13.Authentic (aead p.cipher) (rKey p).key (rKey p).iv sent (rKey p).sequenceNumber.toNat ((rKey p).sequenceNumber.toNat + (readResults calls s).length)
      s.stream.incoming.flatten) (hr : readResults calls s = datas.map .ok ++ [.err .unexpectedMessage]) :
    ∃ type content rest, type ≠ 23#8 ∧ sent.drop (rKey p).sequenceNumber.toNat = datas.map (fun data => (23#8, data)) ++ (type, content) :: rest :=
  ChannelProof.ended sent _ _ calls s p datas hp hc hk (Nat.le_refl _) (Nat.le_refl _) hseq hn hr

/-- C100 for peers that send nothing but application data and close_notify. Missing: peers that send tickets or update their keys, which gives the same
error (`C100_false`). -/
theorem C100_closed_partial : C100_for fun sent => ∀ x ∈ sent, x.1 ≠ 23#8 → x = closeNotify := by
  intro cs s p calls sent datas hp hc hk hseq hn hP hr
  obtain ⟨type, content, rest, h1, h2⟩ := C100_nothing_missing cs s p calls sent datas hp hc hk hseq hn hr
  have hm : (type, content) ∈ sent := List.mem_of_mem_drop (i := (rKey p).sequenceNumber.toNat) (by rw [h2]; simp)
  rw [hP _ hm h1] at h2
  exact ⟨rest, h2⟩

/-- C100, the other direction: when the records of a peer that sends `datas` and then close_notify arrive one by one, the reads give `datas` and then
UnexpectedMessage. -/
theorem C100_seen (code : Nat) (u : Tls13.Suite) (s : TlsStream) (secret : Bytes) (seq : Nat) (datas records : List Bytes) (size : Nat)
    (h : ReadsFrom code u s secret seq) (hsec : secret.length = u.hash.out) (hs : Tls13.Sends u secret seq (datas.map .data ++ [.closeNotify]) records)
    (hi : s.stream.incoming = records) (hl : ∀ d ∈ datas, d.length ≤ size) (h2 : 2 ≤ size) (hq : seq + datas.length < 2 ^ 63 - 1) (hw : ∀ w ∈ records, w.length ≤ 4096)
    (hch : code = 0x1303 → ∀ w ∈ records, w.length % 64 ≠ 21) :
    readResults (List.replicate (datas.length + 1) (.read size)) s = datas.map .ok ++ [.err .unexpectedMessage] := by
  have := C86_results code u size secret hsec (datas.map .data ++ [.closeNotify]) s seq records h hs hi (by
    intro x hx
    rcases List.mem_append.1 hx with hx | hx
    · obtain ⟨d, hd, rfl⟩ := List.mem_map.1 hx
      exact hl d hd
    · rw [List.mem_singleton.1 hx]
      exact h2) (by simp; omega) ⟨by simp, hw, hch⟩
  rw [List.length_append, List.length_map, List.length_singleton] at this
  rw [this]
  simp [expectedRead, Function.comp_def]

/-- C100 on the sending side: `write_alert` with CloseNotify puts the peer's close_notify on the wire, under the next sequence number. -/
theorem C100_sent (code : Nat) (u : Tls13.Suite) (s : TlsStream) (secret : Bytes) (seq : Nat) (h : WritesTo code u s secret seq) (hsec : secret.length = u.hash.out)
    (hf : s.stream.failures = []) (hseq : seq < 2 ^ 63) :
    ∃ w s', s.writeAlert .closeNotify = (.ok (), s') ∧ Tls13.Sends u secret seq [.closeNotify] [w] ∧ s'.stream.written = s.stream.written ++ w ∧
      WritesTo code u s' secret (seq + 1) := by
  obtain ⟨hmem, p, cs, hp, hcs, hc, hk, hiv, hsq⟩ := h
  obtain ⟨cs', t, c, hlib⟩ := lib_suite hmem
  have e1 : cs' = cs := by have := hlib.parsed; rw [hcs] at this; exact (Res.ok.inj this).symm
  subst e1
  have e2 : c = p.cipher := by have := hlib.cipher; rw [hc] at this; exact (Res.ok.inj this).symm
  subst e2
  have hok : KeyOk cs' (wKey p) := by
    have ht := out_le t
    rw [hlib.hash, ← hsec] at ht
    have h2 := keyLen_le cs'
    constructor
    · rw [hk, ← hlib.hash, ← hlib.keyLength]
      exact (expandQ_eq t _ "key" [] _ (by omega) (by simp [String.length]) (by omega)).2
    · rw [hiv, ← hlib.hash]
      exact (expandQ_eq t _ "iv" [] 12 (by omega) (by simp [String.length]) (by omega)).2
  obtain ⟨w, p', g1, ⟨ct, tag, hw, he, hl1, hl2⟩, g3⟩ := encrypt_spec cs' p hc hok (fun e => by rw [e] at hsq; revert hsq; rw [BitVec.toNat_allOnes]; omega) .alert
    [(AlertLevel.getFromError .closeNotify).code, TlsError.closeNotify.asU8] (by simp)
  have hns := EarlyProof.next_seq (k := wKey p) (by omega)
  obtain ⟨s', hs'⟩ : ∃ s', s' = ({ s with protection := some p', stream := { s.stream with written := s.stream.written ++ w } } : TlsStream) := ⟨_, rfl⟩
  refine ⟨w, s', ?_, ⟨w, [], rfl, ⟨ct, tag, 0, by decide, ?_, ?_⟩, rfl⟩, by rw [hs'], ?_⟩
  · unfold TlsStream.writeAlert TlsStream.protectRecord
    rw [hp]
    simp only [g1]
    unfold Socket.writeAll
    rw [hf]
    rw [if_neg (by rw [hw]; simp)]
    simp only [hs', hf]
  · rw [hw]
    simp [Tls13.protectedHeader, Tls13.Sending.content]
  · rw [← hk, ← hiv, ← hsq, ← protect_eq hlib hok _ _ _ (by simp [Tls13.Sending.content]) (by simp [Tls13.protectedHeader, beBytes_length])]
    · unfold aead
      have : p.cipher.encrypt (wKey p).key (Tls13.nonce (wKey p).iv (wKey p).sequenceNumber.toNat) (Tls13.Sending.closeNotify.content ++ [Tls13.Sending.closeNotify.type] ++ zeros 0)
          (Tls13.protectedHeader (Tls13.Sending.closeNotify.content.length + 1 + 0)) = _ := he
      rw [this]
    · intro _
      decide
  · rw [hs']
    exact ⟨hmem, p', cs', rfl, hcs, by rw [g3.cipher]; exact hc, by rw [g3.w]; exact hk, by rw [g3.w]; exact hiv, by rw [g3.w, hns, hsq]⟩

namespace ChannelProof

/-- Whether there is no forgery in a stream for ChaCha20-Poly1305 with a key and IV of zeros: at each position and for each sequence number, what is
there is no record, or not encrypted under this number, or what was sent. -/
def genuine (stream : Bytes) (sent : List (Byte × Bytes)) (last : Nat) : Bool :=
  (List.range stream.length).all fun d => (List.range last).all fun seq =>
    let header := (stream.drop d).take 5
    let n := beNat (header.drop 3)
    if n < 16 ∨ stream.length < d + 5 + n then true else
      let ct := (stream.drop (d + 5)).take (n - 16)
      let tag := (stream.drop (d + 5 + (n - 16))).take 16
      match Model.ChaCha.encrypt ct (zeros 32) (Tls13.nonce (zeros 12) seq) 1 with
      | .ok inner =>
        if Cipher.encrypt .poly1305 (zeros 32) (Tls13.nonce (zeros 12) seq) inner header = .ok (ct, tag) then
          match sent[seq]? with
          | some (t, c) => t ≠ 0#8 ∧ inner = c ++ [t]
          | none => false
        else true
      | _ => true

theorem genuine_sound {stream : Bytes} {sent : List (Byte × Bytes)} {last : Nat} (h : genuine stream sent last = true) :
    Tls13.Authentic (aead .poly1305) (zeros 32) (zeros 12) sent 0 last stream := by
  rintro seq inner wire _ h2 ⟨pre, post, rfl⟩ ⟨header, ct, tag, g1, g2, rfl, g4, g5, g6⟩
  have hk := (poly_inner (by decide) (by simp [Tls13.nonce, xorBytes, zeros, beBytes_length]) g6).1
  unfold genuine at h
  have hl : (pre ++ (header ++ ct ++ tag) ++ post).length = pre.length + 5 + ct.length + 16 + post.length := by
    simp only [List.length_append, g1, g2]
    omega
  have h := List.all_eq_true.1 (List.all_eq_true.1 h pre.length (List.mem_range.2 (by omega))) seq (List.mem_range.2 h2)
  have a1 : ((pre ++ (header ++ ct ++ tag) ++ post).drop pre.length).take 5 = header := by
    rw [List.append_assoc, List.drop_left, List.append_assoc, List.append_assoc, ← g1, List.take_left]
  have a2 : beNat (header.drop 3) = ct.length + 16 := by
    rw [List.length_append, g2] at g4
    rw [g5, List.length_append, g2, beNat_beBytes, Nat.mod_eq_of_lt (by simpa using g4)]
  have a3 : ((pre ++ (header ++ ct ++ tag) ++ post).drop (pre.length + 5)).take ct.length = ct := by
    rw [← List.drop_drop, List.append_assoc, List.drop_left, List.append_assoc, List.append_assoc, ← g1, List.drop_left, List.take_left]
  have a4 : ((pre ++ (header ++ ct ++ tag) ++ post).drop (pre.length + 5 + ct.length)).take 16 = tag := by
    rw [← List.drop_drop, ← List.drop_drop, List.append_assoc, List.drop_left, List.append_assoc, List.append_assoc, ← g1, List.drop_left, List.drop_left,
      ← g2, List.take_left]
  simp only [a1, a2, Nat.add_sub_cancel, a3, a4, hl, hk] at h
  rw [if_neg (by omega)] at h
  have he : Cipher.encrypt .poly1305 (zeros 32) (Tls13.nonce (zeros 12) seq) inner header = .ok (ct, tag) := by
    unfold aead at g6
    split at g6
    · rename_i heq
      rw [heq, Option.some.inj g6]
    · cases g6
  rw [if_pos he] at h
  cases hsent : sent[seq]? with
  | none => rw [hsent] at h; simp at h
  | some x =>
    obtain ⟨t, c⟩ := x
    rw [hsent] at h
    have h := of_decide_eq_true h
    exact ⟨t, c, 0, h.1, by rw [h.2]; simp [zeros], rfl⟩

/-- The record with the application data "hi", and after it the record with close_notify, or with the start of a NewSessionTicket message. -/
def hiRecord : Bytes := (beBytes 48 3541834721254154242041820809062002385858421162723038752719740880750044657325593754666875224205674953421804542693964).take 24
def closeRecord : Bytes := (beBytes 48 3541834721254154242041820809062002385858421162723038752719740880750044657325593754666875224205674953421804542693964).drop 24
def ticketRecord : Bytes := (beBytes 50 232117680292112252406452768542687388359617489320217067698240938360835679335597324219518507627761668279970090777179849180).drop 24

end ChannelProof

/-- The hypotheses of C100 are met: the peer has sent two bytes and close_notify, and they arrive. -/
example : ∃ s : TlsStream, s.protection = some (zeroProt true) ∧
    Tls13.Authentic (aead .poly1305) (zeros 32) (zeros 12) [(23#8, ascii "hi"), closeNotify] 0 2 s.stream.incoming.flatten ∧
    readResults [.read 10, .write [1#8], .read 10] s = [ascii "hi"].map .ok ++ [.err .unexpectedMessage] :=
  ⟨⟨⟨[ChannelProof.hiRecord, ChannelProof.closeRecord], [], []⟩, some (zeroProt true), []⟩, rfl, ChannelProof.genuine_sound (by decide +kernel), by decide +kernel⟩

/-- C100 in full is false: after a ticket the application gets the same error as after the closure alert. -/
theorem C100_false : ¬ C100_statement := by
  intro h
  obtain ⟨rest, h⟩ := h .chacha20Poly1305Sha256 ⟨⟨[ChannelProof.hiRecord, ChannelProof.ticketRecord], [], []⟩, some (zeroProt true), []⟩ (zeroProt true) [.read 10, .read 10]
    [(23#8, ascii "hi"), (22#8, [4#8, 0#8, 0#8, 0#8])] [ascii "hi"] rfl rfl ⟨by decide, by decide⟩ (by decide) (ChannelProof.genuine_sound (by decide +kernel)) trivial (by decide +kernel)
  have h : [(23#8, ascii "hi"), (22#8, [4#8, 0#8, 0#8, 0#8])] = (23#8, ascii "hi") :: closeNotify :: rest := h
  exact absurd (congrArg Prod.fst (List.cons.inj (List.cons.inj h).2).1) (by decide)

/-- C100 from the end of the handshake on, for the server: when the reads on the stream `accept` returned have given `datas` and then UnexpectedMessage, the
first that was sent under the client's application traffic key of RFC 8446 for this handshake is `datas` and then something else than application data. -/
theorem C100_server (env : ServerEnv) (reads : List Bytes) (sock : Socket) (s : TlsStream) (h : ServerHandshake)
    (hc : env.config.cert.raw.length < 2 ^ 24) (ha : ServerConnection.accept env reads sock = (.ok s, h)) :
    ∃ r context auth fin tail, Accepted env reads sock s r context auth fin tail ∧ ∀ (calls : List Call) (sent : List (Byte × Bytes)) (datas : List Bytes), (readResults calls s).length < 2 ^ 64 →
      Tls13.Authentic (aead r.x.c) (r.x.sess.appKey r.transcript .client) (r.x.sess.appIv r.transcript .client) sent 0 (readResults calls s).length s.stream.incoming.flatten →
      readResults calls s = datas.map .ok ++ [.err .unexpectedMessage] →
      ∃ type content rest, type ≠ 23#8 ∧ sent = datas.map (fun data => (23#8, data)) ++ (type, content) :: rest := by
  obtain ⟨r, context, auth, fin, tail, hA⟩ := C42_server_accepts env reads sock s h hc ha
  refine ⟨r, context, auth, fin, tail, hA, fun calls sent datas hl hn hr => ?_⟩
  obtain ⟨p, h1, h2, h3, h4⟩ := hA.keys
  obtain ⟨_, _, _, _, _, _, _, _, _, _, _, _, _, _, _, _, _, _, _, hcs, _⟩ := hA.answered
  have hk := EarlyProof.appKey_sizes r.x r.transcript .client
  have e0 : (r.x.appKey r.transcript .client).sequenceNumber.toNat = 0 := rfl
  have := C100_nothing_missing r.x.cs s p calls sent datas h1 (by rw [h2]; exact hcs) (by rw [h4]; exact hk) (by rw [h4, e0, Nat.zero_add]; exact hl) (by
    rw [h2, h4, e0, Nat.zero_add]
    exact hn) hr
  rw [h4, e0, List.drop_zero] at this
  exact this

/-- C100 for the client. -/
theorem C100_client (env : ClientEnv) (reads : List Bytes) (sock : Socket) (s : TlsStream) (h : Option ClientHandshake)
    (hcl : ∀ c, env.config.clientCert = some c → c.raw.length < 2 ^ 24) (hname : ∀ n, env.config.serverName = some n → n.length < 2 ^ 24)
    (hin : sock.incoming.flatten.length < 2 ^ 24) (hw : ClientConnection.connect env reads sock = (.ok s, h)) :
    ∃ r, ClientCompleted env reads sock s r ∧ ∀ (calls : List Call) (sent : List (Byte × Bytes)) (datas : List Bytes), (readResults calls s).length < 2 ^ 64 →
      Tls13.Authentic (aead r.x.c) (r.x.sess.appKey r.transcript .server) (r.x.sess.appIv r.transcript .server) sent 0 (readResults calls s).length s.stream.incoming.flatten →
      readResults calls s = datas.map .ok ++ [.err .unexpectedMessage] →
      ∃ type content rest, type ≠ 23#8 ∧ sent = datas.map (fun data => (23#8, data)) ++ (type, content) :: rest := by
  obtain ⟨r, hr⟩ := C45_client_connects env reads sock s h hcl hname hin hw
  refine ⟨r, hr, fun calls sent datas hl hn hre => ?_⟩
  obtain ⟨p, h1, h2, h3, h4⟩ := hr.keys
  obtain ⟨_, _, _, _, _, _, _, _, _, _, _, hcs, _⟩ := hr.answered
  have hk := EarlyProof.appKey_sizes r.x r.transcript .server
  have e0 : (r.x.appKey r.transcript .server).sequenceNumber.toNat = 0 := rfl
  have := C100_nothing_missing r.x.cs s p calls sent datas h1 (by rw [h2]; exact hcs) (by rw [h4]; exact hk) (by rw [h4, e0, Nat.zero_add]; exact hl) (by
    rw [h2, h4, e0, Nat.zero_add]
    exact hn) hre
  rw [h4, e0, List.drop_zero] at this
  exact this

/-- The hypotheses of `C100_seen` are met with every suite. -/
example (code : Nat) (u : Tls13.Suite) (hu : (code, u) ∈ Tls13.suites) (secret : Bytes) (hsec : secret.length = u.hash.out) :
    ∃ s records, ReadsFrom code u s secret 0 ∧ Tls13.Sends u secret 0 ([ascii "hi", []].map .data ++ [.closeNotify]) records ∧ s.stream.incoming = records ∧
      readResults (List.replicate 3 (.read 10)) s = [.ok (ascii "hi"), .ok [], .err .unexpectedMessage] := by
  obtain ⟨records, h1, h2⟩ := ChannelProof.sends_exist u ([ascii "hi", []].map .data ++ [.closeNotify]) secret 0 (by
    intro x hx
    simp only [List.map_cons, List.map_nil, List.cons_append, List.nil_append, List.mem_cons, List.not_mem_nil, or_false] at hx
    rcases hx with rfl | rfl | rfl <;> decide)
  obtain ⟨s, h3, h4⟩ := ChannelProof.reads_exist hu secret records
  have hw : ∀ w ∈ records, w.length ≤ 4096 ∧ w.length % 64 ≠ 21 := by
    intro w hw
    obtain ⟨x, hx, e⟩ := h2 w hw
    rw [e]
    simp only [List.map_cons, List.map_nil, List.cons_append, List.nil_append, List.mem_cons, List.not_mem_nil, or_false] at hx
    rcases hx with rfl | rfl | rfl <;> decide
  exact ⟨s, records, h3, h1, h4, C100_seen code u s secret 0 [ascii "hi", []] records 10 h3 hsec h1 h4 (by decide) (by decide) (by decide) (fun w h => (hw w h).1) fun _ w h => (hw w h).2⟩

/-- The hypotheses of `C100_sent` are met with every suite. -/
example (code : Nat) (u : Tls13.Suite) (hu : (code, u) ∈ Tls13.suites) (secret : Bytes) : ∃ s, WritesTo code u s secret 0 ∧ s.stream.failures = [] := by
  obtain ⟨cs, t, c, hlib⟩ := lib_suite hu
  exact ⟨⟨⟨[], [], []⟩, some ⟨⟨⟨.sha256, []⟩, ⟨.sha256, []⟩, ⟨.sha256, []⟩⟩, c,
    ⟨⟨[], Tls13.writeKey u.hash secret u.keyLength, Tls13.writeIv u.hash secret 12, 0⟩, ⟨[], Tls13.writeKey u.hash secret u.keyLength, Tls13.writeIv u.hash secret 12, 0⟩⟩,
    true, none⟩, []⟩, ⟨hu, _, cs, rfl, hlib.parsed, hlib.cipher, rfl, rfl, rfl⟩, rfl⟩

end ATLS
