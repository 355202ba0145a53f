import Verif.Props.StreamRead
import Verif.Props.PairExample
import Verif.Proof.Outcome
/-
C91: whether a peer can crash the program.
-/
namespace ATLS
open ATLS.Model ATLS.Spec ATLS.RecProof FlowProof

/-- C91 in full: whatever arrives, `accept`, `connect` and `tls_read` return a value or an error. -/
def C91_statement : Prop :=
  (∀ (env : ServerEnv) (rng : List Bytes) (sock : Socket), (ServerConnection.accept env rng sock).1 ≠ .panic) ∧
  (∀ (env : ClientEnv) (rng : List Bytes) (n : Int) (ch : Bytes) (reads : List Bytes), Offered env rng n ch →
    (ClientConnection.connect env rng ⟨reads, [], []⟩).1 ≠ .panic) ∧
  (∀ (cs : CipherSuite) (s : TlsStream) (p : RecordPayloadProtection) (bufLen : Nat), s.protection = some p → Readable cs p →
    (s.tlsRead bufLen).1 ≠ .panic)

/-- The bytes of one TCP read that crash `tls_read` with a buffer of `bufLen` bytes: the header of a record (with one of the known types) with the
length `len`, and then
* one to three bytes less than `len`;
* or at least `len` bytes, and `len` below the size of the tag;
* or at least `len` bytes of which the first `len` are what the peer's key makes of application data longer than the buffer. -/
inductive Crashing (p : RecordPayloadProtection) (bufLen : Nat) : Bytes → Prop
  | cut (type : RecordType) (v1 v2 l1 l2 : Byte) (rest : Bytes) : rest.length < beNat [l1, l2] → beNat [l1, l2] ≤ rest.length + 3 →
      Crashing p bufLen ([type.code, v1, v2, l1, l2] ++ rest)
  | short (type : RecordType) (v1 v2 l1 l2 : Byte) (body rest : Bytes) : body.length = beNat [l1, l2] → body.length < 16 →
      Crashing p bufLen ([type.code, v1, v2, l1, l2] ++ body ++ rest)
  | large (type : RecordType) (v1 v2 l1 l2 : Byte) (ct tag data rest : Bytes) (padding : Nat) : (ct ++ tag).length = beNat [l1, l2] → tag.length = 16 →
      ct.length = data.length + 1 + padding →
      p.cipher.encrypt (rKey p).key (Tls13.nonce (rKey p).iv (rKey p).sequenceNumber.toNat) (data ++ [23#8] ++ zeros padding)
        [type.code, v1, v2, l1, l2] = .ok (ct, tag) → bufLen < data.length →
      Crashing p bufLen ([type.code, v1, v2, l1, l2] ++ (ct ++ tag) ++ rest)

namespace RecProof

theorem beNat2 (a b : Byte) : beNat [a, b] = a.toNat * 256 + b.toNat := by simp [beNat]

theorem code_of {b : Byte} {t : RecordType} (h : RecordType.new b = (.ok t : Res TlsError _)) : b = t.code := by
  unfold RecordType.new at h
  split_ifs at h <;> cases h <;> assumption

/-- A whole record followed by anything. -/
theorem fromRaw_whole (t : RecordType) (v1 v2 l1 l2 : Byte) (body rest : Bytes) (h : body.length = l1.toNat * 256 + l2.toNat) :
    Record.fromRaw ([t.code, v1, v2, l1, l2] ++ body ++ rest) =
      .ok (5 + body.length, ⟨t, v1.toNat * 256 + v2.toNat, body.length, [t.code, v1, v2, l1, l2], body⟩) := by
  unfold Record.fromRaw
  rw [if_neg (by simp)]
  simp only [List.cons_append, List.nil_append, idx, List.getElem?_cons_zero, List.getElem?_cons_succ, Res.ok_bind, new_code]
  rw [if_neg (by simp; omega)]
  unfold slice
  rw [if_pos (by simp), if_pos (by simp; omega)]
  simp only [Res.ok_bind, List.drop_succ_cons, List.drop_zero, List.take_succ_cons, List.take_zero, ← h]
  rw [show 5 + body.length - 5 = body.length by omega, List.take_left]

theorem tcpRead_ne_panic (s : TlsStream) (cap : Nat) : (s.tcpRead cap).1 ≠ .panic := by
  unfold TlsStream.tcpRead
  split
  · simp
  · simp only []
    split <;> simp

/-- What opening an authentic record of application data gives. -/
theorem decrypt_authentic {cs : CipherSuite} {p : RecordPayloadProtection} (h : Readable cs p) {r : Record} (hh : r.header.length = 5)
    {ct tag data : Bytes} {n : Nat} (hf : r.fraqment = ct ++ tag) (hl : r.fraqment.length < 2 ^ 16) (ht : tag.length = 16)
    (he : p.cipher.encrypt (rKey p).key (Tls13.nonce (rKey p).iv (rKey p).sequenceNumber.toNat) (data ++ [23#8] ++ zeros n) r.header = .ok (ct, tag))
    (hn : (data ++ [23#8] ++ zeros n).length < 2 ^ 17) :
    (p.decrypt r).1 = .ok (.applicationData, data) := by
  obtain ⟨p', hp, _⟩ := readNonce_eq p h.sizes.2 h.ne
  obtain ⟨ct', tag', he', _, _, hd⟩ := C15_aead_round_trip cs p.cipher h.cipher (rKey p).key
    (Tls13.nonce (rKey p).iv (rKey p).sequenceNumber.toNat) (data ++ [23#8] ++ zeros n) r.header (suiteKeys h.sizes _) (by rw [hh]; omega)
  rw [he] at he'
  simp only [Res.ok.injEq, Prod.mk.injEq] at he'
  rw [← he'.1, ← he'.2] at hd
  have hfl : r.fraqment.length = ct.length + 16 := by rw [hf, List.length_append, ht]
  unfold RecordPayloadProtection.decrypt
  rw [if_neg (by omega)]
  simp only []
  rw [hp]
  simp only []
  rw [show r.fraqment.take (r.fraqment.length - 16) = ct by rw [hfl, hf]; simp, show r.fraqment.drop ct.length = tag by rw [hf]; simp, hd]
  simp only []
  have hs : RecordPayloadProtection.scanType (data ++ [23#8] ++ zeros n) (data ++ [23#8] ++ zeros n).length =
      .ok (.applicationData, data.length) := by
    have := scan_zeros (data ++ [23#8]) n
    rw [show (data ++ [23#8] ++ zeros n).length = (data ++ [23#8]).length + n by simp [zeros]; omega, this,
      show (data ++ [23#8]).length = data.length + 1 from List.length_append, RecordPayloadProtection.scanType]
    have : idx (ε := TlsError) (data ++ [23#8] ++ zeros n) data.length = .ok 23#8 := by
      unfold idx
      rw [List.append_assoc, List.getElem?_append_right (le_refl _)]
      simp
    rw [this]
    rfl
  rw [hs]
  show (Res.ok (RecordType.applicationData, (data ++ [23#8] ++ zeros n).take data.length) : Res TlsError _) = _
  rw [List.append_assoc, List.take_left]

end RecProof

/-- C91 for `tls_read` on a protected stream: it crashes on exactly the reads described by `Crashing`. The first two kinds need no key. Missing:
the handshakes, which crash on more (C18, C37, C41, C53; `C91_accept_crashes`, `C91_connect_crashes`). -/
theorem C91_read_partial (cs : CipherSuite) (s : TlsStream) (p : RecordPayloadProtection) (hp : s.protection = some p) (h : Readable cs p)
    (bufLen : Nat) : (s.tlsRead bufLen).1 = .panic ↔ ∃ rx, nextRead s rx ∧ Crashing p bufLen rx := by
  have key : ∀ rx s1, s.tcpRead 4096 = (.ok rx, s1) → ((s.tlsRead bufLen).1 = .panic ↔ Crashing p bufLen rx) := by
    intro rx s1 ht
    obtain ⟨hn, hpr⟩ := tcpRead_inv s s1 4096 rx ht
    have hlen4 : rx.length ≤ 4096 := by
      obtain ⟨c, cs', _, rfl⟩ := hn
      rw [List.length_take]; omega
    -- a whole record is found
    have whole : ∀ (t : RecordType) (v1 v2 l1 l2 : Byte) (body rest : Bytes), rx = [t.code, v1, v2, l1, l2] ++ body ++ rest →
        body.length = l1.toNat * 256 + l2.toNat → ((s.tlsRead bufLen).1 = .panic ↔
          (p.decrypt ⟨t, v1.toNat * 256 + v2.toNat, body.length, [t.code, v1, v2, l1, l2], body⟩).1 = .panic ∨
          ∃ data, (p.decrypt ⟨t, v1.toNat * 256 + v2.toNat, body.length, [t.code, v1, v2, l1, l2], body⟩).1 = .ok (.applicationData, data) ∧
            bufLen < data.length) := by
      intro t v1 v2 l1 l2 body rest hrx hb
      unfold TlsStream.tlsRead
      rw [ht]
      simp only []
      rw [hrx, fromRaw_whole t v1 v2 l1 l2 body rest hb]
      simp only [ne_eq, not_true_eq_false, if_false, hpr, hp]
      rcases p.decrypt ⟨t, v1.toNat * 256 + v2.toNat, body.length, [t.code, v1, v2, l1, l2], body⟩ with ⟨⟨ty, data⟩ | e | _, p'⟩
      · by_cases hty : ty = .applicationData
        · subst hty
          simp only [not_true_eq_false, if_false]
          unfold TlsStream.deliver Record.new
          simp only [reduceCtorEq, false_or, Res.ok.injEq, Prod.mk.injEq, true_and, exists_eq_left']
          split_ifs with hb <;> simp <;> omega
        · simp [hty]
      · simp
      · simp
    constructor
    · intro hpan
      cases hf : Record.fromRaw rx with
      | err e =>
        unfold TlsStream.tlsRead at hpan
        rw [ht] at hpan
        simp only [] at hpan
        rw [hf] at hpan; cases hpan
      | panic =>
        obtain ⟨t, v1, v2, l1, l2, rest, e1, e2, e3⟩ := (fromRaw_panic_iff rx).1 hf
        rw [e1]
        exact .cut t v1 v2 l1 l2 rest (by rw [beNat2]; exact e3) (by rw [beNat2]; exact e2)
      | ok nr =>
        obtain ⟨n, r⟩ := nr
        obtain ⟨b0, b1, b2, b3, b4, rest, hrx, hhd, hty, hlen, hflen, _⟩ := fromRaw_inv rx n r hf
        have hb0 := code_of hty
        rw [hhd, hb0] at hrx
        rcases (whole r.contentType b1 b2 b3 b4 r.fraqment rest hrx (hflen.trans hlen)).1 hpan with hd | ⟨data, hd, hbuf⟩
        · rcases Nat.lt_or_ge r.fraqment.length 16 with h16 | h16
          · rw [hrx]
            exact .short _ _ _ _ _ _ _ (by rw [beNat2]; omega) h16
          · have h3 := b3.isLt
            have h4 := b4.isLt
            have := C63_returns_partial cs p h ⟨r.contentType, b1.toNat * 256 + b2.toNat, r.fraqment.length, [r.contentType.code, b1, b2, b3, b4], r.fraqment⟩
              ⟨rfl, h16, by simp only []; omega⟩
            rw [hd] at this
            exact this.elim
        · have h3 := b3.isLt
          have h4 := b4.isLt
          obtain ⟨ct, tag, inner, e1, e2, e3, e4, e5⟩ := C62_only_authentic cs p _ h _ ⟨rfl, by simp only []; omega⟩ _ _ (Prod.ext hd rfl)
          rcases e5 with ⟨_, k, e5⟩ | ⟨e5, _⟩
          · simp only [] at e1 e3
            rw [hrx, e1]
            rw [e5] at e3
            exact .large _ _ _ _ _ ct tag data _ k (by rw [beNat2, ← e1]; omega) e2 (by rw [← e4, e5]; simp only [List.length_append, List.length_cons, List.length_nil, zeros, List.length_replicate]) e3 hbuf
          · cases e5
    · intro hc
      cases hc with
      | cut t v1 v2 l1 l2 rest h1 h2 =>
        unfold TlsStream.tlsRead
        rw [ht]
        simp only []
        rw [(fromRaw_panic_iff ([t.code, v1, v2, l1, l2] ++ rest)).2 ⟨t, v1, v2, l1, l2, rest, rfl, by rw [← beNat2]; exact h2, by rw [← beNat2]; exact h1⟩]
      | short t v1 v2 l1 l2 body rest h1 h2 =>
        refine (whole t v1 v2 l1 l2 body rest rfl (by rw [h1, beNat2])).2 (.inl ?_)
        exact C63_short_panics p _ h2
      | large t v1 v2 l1 l2 ct tag data rest n h1 h2 h5 h3 h4 =>
        refine (whole t v1 v2 l1 l2 (ct ++ tag) rest rfl (by rw [h1, beNat2])).2 (.inr ⟨data, ?_, h4⟩)
        have hx : (ct ++ tag).length < 2 ^ 13 := by
          simp only [List.length_append, List.length_cons, List.length_nil] at hlen4 ⊢
          omega
        refine decrypt_authentic h rfl rfl (by simp only []; omega) h2 h3 ?_
        rw [List.length_append] at hx
        simp only [List.length_append, List.length_cons, List.length_nil, zeros, List.length_replicate]
        omega
  constructor
  · intro hpan
    rcases ht : s.tcpRead 4096 with ⟨rx | e | _, s1⟩
    · exact ⟨rx, (tcpRead_inv s s1 4096 rx ht).1, (key rx s1 ht).1 hpan⟩
    · unfold TlsStream.tlsRead at hpan
      rw [ht] at hpan
      cases hpan
    · exact absurd (by rw [ht]) (tcpRead_ne_panic s 4096)
  · rintro ⟨rx, ⟨c, cs', hi, hrx⟩, hc⟩
    have hne : rx ≠ [] := by cases hc <;> simp
    rcases ht : s.tcpRead 4096 with ⟨rx' | e | _, s1⟩
    · obtain ⟨⟨c', cs'', hi', hrx'⟩, _⟩ := tcpRead_inv s s1 4096 rx' ht
      rw [hi] at hi'
      obtain ⟨rfl, _⟩ := List.cons.inj hi'
      rw [← hrx] at hrx'
      subst hrx'
      exact (key rx' s1 ht).2 hc
    · unfold TlsStream.tcpRead at ht
      rw [hi] at ht
      simp only [← hrx, if_neg hne] at ht
      cases ht
    · exact absurd (by rw [ht]) (tcpRead_ne_panic s 4096)

/-- Every server, with any configuration, crashes when the first read is these five bytes (which no key is needed for). -/
theorem C91_accept_crashes (env : ServerEnv) (rng : List Bytes) (reads : List Bytes) (failures : List (Option Nat)) (written : Bytes) :
    (ServerConnection.accept env rng ⟨[22, 3, 3, 0, 3] :: reads, failures, written⟩).1 = .panic := by
  rfl

/-- Every client that has sent its ClientHello crashes when the first read is these five bytes. -/
theorem C91_connect_crashes (env : ClientEnv) (rng : List Bytes) (n : Int) (ch : Bytes) (ho : Offered env rng n ch) (reads : List Bytes) :
    (ClientConnection.connect env rng ⟨[22, 3, 3, 0, 3] :: reads, [], []⟩).1 = .panic := by
  obtain ⟨g, rng', random, hb, hsend⟩ := ClientProof.hello_of ho
  rw [ClientProof.connect_eq env hb]
  unfold ClientProof.conclude ClientHandshake.doHandshakeWithError
  rw [ClientProof.run_reads env hsend]
  rfl

/-- C91 is false. -/
theorem C91_false : ¬ C91_statement := by
  intro h
  exact h.1 (exampleServer none none) [] ⟨[[22, 3, 3, 0, 3]], [], []⟩ (C91_accept_crashes _ _ [] [] [])

/-- The same for each of its three parts: a client with its ClientHello sent, and an established connection. -/
example : (∃ n ch, Offered (exampleClient none) [zeros 100, zeros 100, zeros 100] n ch) ∧
    ∃ (s : TlsStream) (p : RecordPayloadProtection), s.protection = some p ∧ Readable .chacha20Poly1305Sha256 p ∧ (s.tlsRead 1000).1 = .panic := by
  refine ⟨⟨256, _, _, _, _, zeros 32, zeros 32, example_between.1, rfl, rfl, by simp [zeros], by simp [zeros], by norm_num, by norm_num, rfl⟩,
    { TlsStream.new ⟨[[23, 3, 3, 0, 0]], [], []⟩ with protection := some (zeroProt true) }, zeroProt true, rfl,
    ⟨rfl, ⟨by decide, by decide⟩, by decide⟩, ?_⟩
  refine (C91_read_partial .chacha20Poly1305Sha256 _ (zeroProt true) rfl ⟨rfl, ⟨by decide, by decide⟩, by decide⟩ 1000).2 ⟨_, ⟨_, _, rfl, rfl⟩, ?_⟩
  exact .short .applicationData 3 3 0 0 [] [] rfl (by decide)

/-- A read that does not crash: three bytes of application data, with a buffer for three. -/
example : ∃ (s : TlsStream) (p : RecordPayloadProtection), s.protection = some p ∧ Readable .chacha20Poly1305Sha256 p ∧ (s.tlsRead 3).1 = .ok [1, 2, 3] ∧ (s.tlsRead 2).1 = .panic :=
  ⟨{ TlsStream.new ⟨[(({ TlsStream.new ⟨[], [], []⟩ with protection := some (zeroProt false) }).tlsWrite [1, 2, 3]).2.stream.written], [],
    []⟩ with protection := some (zeroProt true) }, zeroProt true, rfl, ⟨rfl, ⟨by decide, by decide⟩, by decide⟩, by decide +kernel, by decide +kernel⟩

end ATLS
