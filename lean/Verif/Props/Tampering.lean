import Verif.Spec.Tampering
import Verif.Props.PostHandshake
import Verif.Props.Closing
/-
C107: what a changed, inserted, removed or repeated record does to the reads after it.
-/
namespace ATLS
open ATLS.Spec ATLS.Model ATLS.KsProof ATLS.RecProof FlowProof RfcProof

/-- What arrives on the stream: instead of the `records` of the peer for `sendings` some records `wires`, one per read, among which there are no
forgeries. -/
structure Attacked (code : Nat) (u : Tls13.Suite) (s : TlsStream) (secret : Bytes) (seq : Nat) (sendings : List Tls13.Sending) (records wires : List Bytes) (room : Nat) : Prop where
  reads : ReadsFrom code u s secret seq
  size : secret.length = u.hash.out
  sends : Tls13.Sends u secret seq sendings records
  plain : Plain code sendings records
  sizes : ∀ x ∈ sendings, x.content.length ≤ room
  arrives : s.stream.incoming = wires
  framed : ∀ w ∈ wires, Tls13.Readable w
  unforged : Tls13.Unforged u.protect (Tls13.writeKey u.hash secret u.keyLength) (Tls13.writeIv u.hash secret 12) records seq (seq + wires.length) wires
  numbers : seq + wires.length < 2 ^ 63

/-- C107 in full: after a read that failed because of a record that is not the peer's, no read gives data. -/
def C107_statement : Prop :=
  ∀ (code : Nat) (u : Tls13.Suite) (s : TlsStream) (secret : Bytes) (seq : Nat) (sendings : List Tls13.Sending) (records wires : List Bytes) (size : Nat),
    Attacked code u s secret seq sendings records wires size → ∀ (i j : Nat) (data : Bytes), i < j →
    (readResults (List.replicate wires.length (.read size)) s)[i]? = some (Res.err TlsError.decryptError) →
    (readResults (List.replicate wires.length (.read size)) s)[j]? ≠ some (Res.ok data)

namespace ChannelProof

theorem chacha_involution (key nonce m : Bytes) (n : Nat) : Spec.ChaCha.encrypt key n nonce (Spec.ChaCha.encrypt key n nonce m) = m := by
  unfold Spec.ChaCha.encrypt
  apply List.ext_getElem (by simp)
  intro i h1 h2
  simp [BitVec.xor_assoc]

/-- What the library's cipher opens is an encryption of the suite. -/
theorem opened_sealed {code : Nat} {u : Tls13.Suite} {cs : CipherSuite} {t : HashType} {c : Cipher} (hs : LibSuite code u cs t c) {k : Key} (hk : KeyOk cs k)
    (seq : Nat) (ct tag pl header : Bytes) (hl : ct.length ≤ 2 ^ 16) (hh : header.length = 5) (he : c.encrypt k.key (Tls13.nonce k.iv seq) pl header = .ok (ct, tag))
    (hpl : pl.length = ct.length) : ∃ inner, u.protect k.key (Tls13.nonce k.iv seq) inner header = some (ct, tag) := by
  by_cases hx : code = 0x1303 → pl.length % 64 ≠ 0
  · refine ⟨pl, ?_⟩
    rw [← protect_eq hs hk seq pl header (by omega) (by omega) hx]
    unfold aead
    rw [he]
  · have hc : code = 0x1303 := by by_contra h; exact hx fun h' => absurd h' h
    subst hc
    have hcs : cs = .chacha20Poly1305Sha256 := by have := hs.parsed; cases cs <;> first | rfl | (revert this; decide)
    subst hcs
    have hci : c = .poly1305 := (Res.ok.inj hs.cipher).symm
    subst hci
    have ha : u.aead = .chacha20Poly1305 := (Option.some.inj hs.aead).symm
    obtain ⟨c', h1, _, h3⟩ := CipherProof.poly_encrypt_ok k.key (Tls13.nonce k.iv seq) pl header hk.1 (nonce_length k.iv seq hk.2) (by omega)
    have h3' : Cipher.encrypt .poly1305 k.key (Tls13.nonce k.iv seq) pl header = .ok (c', Spec.ChaCha.tag k.key (Tls13.nonce k.iv seq) header c') := h3
    rw [he] at h3'
    simp only [Res.ok.injEq, Prod.mk.injEq] at h3'
    obtain ⟨rfl, rfl⟩ := h3'
    refine ⟨Spec.ChaCha.encrypt k.key 1 (Tls13.nonce k.iv seq) ct, ?_⟩
    unfold Tls13.Suite.protect
    rw [ha]
    simp only [Tls13.Aead.encrypt, Spec.ChaCha.aeadEncrypt, chacha_involution]

/-- A record that is no encryption under the current number. -/
theorem read_foreign {code : Nat} {u : Tls13.Suite} {s : TlsStream} {secret : Bytes} {seq : Nat} (h : ReadsFrom code u s secret seq) (hsec : secret.length = u.hash.out)
    (hseq : seq < 2 ^ 63) (w : Bytes) (rest : List Bytes) (size : Nat) (hf : Tls13.Readable w)
    (hw : ∀ inner, ¬ Tls13.Encloses u.protect (Tls13.writeKey u.hash secret u.keyLength) (Tls13.writeIv u.hash secret 12) seq inner w)
    (hi : s.stream.incoming = w :: rest) :
    (s.tlsRead size).1 = .err .decryptError ∧ ReadsFrom code u (s.tlsRead size).2 secret (seq + 1) ∧ (s.tlsRead size).2.stream.incoming = rest := by
  obtain ⟨hmem, p, cs, hp, hcs, hc, hk, hiv, hsq⟩ := h
  obtain ⟨cs', t, c, hlib⟩ := lib_suite hmem
  have e1 : cs' = cs := by have := hlib.parsed; rw [hcs] at this; exact (Res.ok.inj this).symm
  subst e1
  have e2 : c = p.cipher := by have := hlib.cipher; rw [hc] at this; exact (Res.ok.inj this).symm
  subst e2
  have hok : KeyOk cs' (rKey p) := by
    have ht := out_le t
    rw [hlib.hash, ← hsec] at ht
    have h2 := keyLen_le cs'
    constructor
    · rw [hk, ← hlib.hash, ← hlib.keyLength]
      exact (expandQ_eq t _ "key" [] _ (by omega) (by simp [String.length]) (by omega)).2
    · rw [hiv, ← hlib.hash]
      exact (expandQ_eq t _ "iv" [] 12 (by omega) (by simp [String.length]) (by omega)).2
  obtain ⟨type, body, hty, ⟨v1, v2, hbl, hwe⟩, h16, hwl⟩ := hf
  obtain ⟨ty, rfl⟩ : ∃ ty : RecordType, ty.code = type := by
    simp only [List.mem_cons, List.not_mem_nil, or_false] at hty
    rcases hty with rfl | rfl | rfl | rfl | rfl
    exacts [⟨.invalid, rfl⟩, ⟨.changeCipherSpec, rfl⟩, ⟨.alert, rfl⟩, ⟨.handshake, rfl⟩, ⟨.applicationData, rfl⟩]
  have hb2 : beBytes 2 body.length = [BitVec.ofNat 8 (body.length / 256), BitVec.ofNat 8 body.length] := by
    simp [beBytes]
  have hne : w ≠ [] := by rw [hwe]; simp
  obtain ⟨header, hhd⟩ : ∃ header : Bytes, header = [ty.code, v1, v2, BitVec.ofNat 8 (body.length / 256), BitVec.ofNat 8 body.length] := ⟨_, rfl⟩
  have hwe' : w = header ++ body := by rw [hwe, hb2, hhd]; simp
  have hraw : Record.fromRaw w = .ok (5 + body.length, ⟨ty, v1.toNat * 256 + v2.toNat, body.length, header, body⟩) := by
    have := fromRaw_header ty v1 v2 body [] hbl
    rw [List.append_nil, ← hhd, ← hwe'] at this
    exact this
  have hns := next_seq (k := rKey p) (by omega)
  obtain ⟨q, hq, hstep⟩ := readNonce_eq p hok.2 (by intro hne; rw [hne] at hsq; simp at hsq; omega)
  have hfrom : ∀ s' : TlsStream, s'.protection = some q → ReadsFrom code u s' secret (seq + 1) := fun s' hs' =>
    ⟨hmem, q, cs', hs', hcs, by rw [hstep.cipher]; exact hc, by rw [hstep.r]; exact hk, by rw [hstep.r]; exact hiv, by rw [hstep.r, hns, hsq]⟩
  have hdec : p.decrypt ⟨ty, v1.toNat * 256 + v2.toNat, body.length, header, body⟩ = (.err .decryptError, q) := by
    unfold RecordPayloadProtection.decrypt
    rw [if_neg (by simp only []; omega)]
    simp only [hq]
    have hlt : (body.take (body.length - 16)).length = body.length - 16 := by rw [List.length_take]; omega
    rcases C16_only_right_tag cs' p.cipher hc (rKey p).key (Tls13.nonce (rKey p).iv (rKey p).sequenceNumber.toNat)
      (body.take (body.length - 16)) header (body.drop (body.take (body.length - 16)).length)
      (suiteKeys hok _) (by rw [hlt, hhd]; simp only [List.length_cons, List.length_nil]; omega) with ⟨pl, g1, g2, g3⟩ | ⟨g1, _⟩
    · exfalso
      obtain ⟨inner, hin⟩ := opened_sealed hlib hok _ _ _ pl header (by rw [hlt]; omega) (by rw [hhd]; rfl) g2 g3
      rw [hk, hiv, hsq] at hin
      have hta : body.take (body.length - 16) ++ body.drop (body.take (body.length - 16)).length = body := by
        rw [hlt, List.take_append_drop]
      refine hw inner ⟨header, _, _, by rw [hhd]; rfl, ?_, ?_, ?_, ?_, hin⟩
      · rw [hlt, List.length_drop]; omega
      · rw [List.append_assoc, hta, hwe']
      · rw [hta]; exact hbl
      · rw [hta, hb2, hhd]; rfl
    · rw [g1]
  unfold TlsStream.tlsRead TlsStream.tcpRead
  rw [hi]
  simp only [List.take_of_length_le hwl, List.drop_of_length_le hwl, hne, if_true, if_false, hraw, ne_eq, not_true_eq_false, hp, hdec]
  exact ⟨by first | rfl | trivial, hfrom _ rfl, by first | rfl | trivial⟩

/-- The records of a peer in `Plain`, by number. -/
theorem sends_nth {u : Tls13.Suite} {secret : Bytes} (xs : List Tls13.Sending) : ∀ (seq : Nat) (ws : List Bytes), Tls13.Sends u secret seq xs ws →
    (∀ b, Tls13.Sending.keyUpdate b ∉ xs) → ws.length = xs.length ∧ ∀ i w, ws[i]? = some w → ∃ x, xs[i]? = some x ∧
      Tls13.Protected u.protect (Tls13.writeKey u.hash secret u.keyLength) (Tls13.writeIv u.hash secret 12) (seq + i) x.type x.content w := by
  induction xs with
  | nil => intro seq ws h _; cases h; exact ⟨rfl, by simp⟩
  | cons x xs ih =>
    intro seq ws h hu
    obtain ⟨w, rest, rfl, hw, hrest⟩ := h
    have hrest' : Tls13.Sends u secret (seq + 1) xs rest := by
      cases x with
      | keyUpdate b => exact absurd (List.mem_cons_self ..) (hu b)
      | _ => exact hrest
    obtain ⟨hl, hn⟩ := ih (seq + 1) rest hrest' fun b hb => hu b (by simp [hb])
    refine ⟨by simp [hl], fun i v hv => ?_⟩
    cases i with
    | zero => cases hv; exact ⟨x, rfl, hw⟩
    | succ i =>
      obtain ⟨y, h1, h2⟩ := hn i v (by simpa using hv)
      exact ⟨y, by simpa using h1, by rw [show seq + (i + 1) = seq + 1 + i by omega]; exact h2⟩

/-- All reads, from read number `n` on. -/
theorem attacked {code : Nat} {u : Tls13.Suite} {secret : Bytes} {seq : Nat} {sendings : List Tls13.Sending} {records all : List Bytes} {size : Nat}
    (hsec : secret.length = u.hash.out) (hs : Tls13.Sends u secret seq sendings records) (hp : Plain code sendings records)
    (hx : ∀ x ∈ sendings, x.content.length ≤ size) (hfr : ∀ w ∈ all, Tls13.Readable w)
    (hu : Tls13.Unforged u.protect (Tls13.writeKey u.hash secret u.keyLength) (Tls13.writeIv u.hash secret 12) records seq (seq + all.length) all)
    (hb : seq + all.length < 2 ^ 63) (wires : List Bytes) : ∀ (n : Nat) (s : TlsStream), ReadsFrom code u s secret (seq + n) → s.stream.incoming = wires →
    n + wires.length = all.length → (∀ w ∈ wires, w ∈ all) → ∀ i w, wires[i]? = some w →
    (records[n + i]? = some w → ∃ x, sendings[n + i]? = some x ∧ (readResults (List.replicate wires.length (.read size)) s)[i]? = some (expectedRead x)) ∧
    (records[n + i]? ≠ some w → (readResults (List.replicate wires.length (.read size)) s)[i]? = some (.err .decryptError)) := by
  induction wires with
  | nil => intro n s _ _ _ _ i w hw; simp at hw
  | cons v rest ih =>
    intro n s h hi hn hall i w hw
    simp only [List.length_cons] at hn
    obtain ⟨hlen, hnth⟩ := sends_nth sendings seq records hs hp.noUpdate
    have key : (records[n]? = some v → ∃ x, sendings[n]? = some x ∧ (s.tlsRead size).1 = expectedRead x) ∧
        (records[n]? ≠ some v → (s.tlsRead size).1 = .err .decryptError) ∧
        ReadsFrom code u (s.tlsRead size).2 secret (seq + n + 1) ∧ (s.tlsRead size).2.stream.incoming = rest := by
      by_cases hr : records[n]? = some v
      · obtain ⟨x, hx1, hx2⟩ := hnth n v hr
        have hm := List.mem_of_getElem? hr
        obtain ⟨h1, h2, h3⟩ := read_record h hsec (by omega) x v rest size hx2 hi (hx _ (List.mem_of_getElem? hx1)) (hp.small _ hm) fun hc => hp.chacha hc _ hm
        exact ⟨fun _ => ⟨x, hx1, h1⟩, fun h => absurd hr h, h2, h3⟩
      · obtain ⟨h1, h2, h3⟩ := read_foreign h hsec (by omega) v rest size (hfr _ (hall _ (by simp)))
          (fun inner he => hr (by have := hu (seq + n) inner v (by omega) (by omega) (hall _ (by simp)) he; rwa [Nat.add_sub_cancel_left] at this)) hi
        exact ⟨fun h => absurd h hr, fun _ => h1, h2, h3⟩
    obtain ⟨k1, k2, k3, k4⟩ := key
    simp only [List.length_cons, List.replicate_succ, readResults]
    cases i with
    | zero =>
      have hw : v = w := by simpa using hw
      subst hw
      simp only [Nat.add_zero, List.getElem?_cons_zero]
      refine ⟨fun hr => ?_, fun hr => by rw [k2 hr]⟩
      obtain ⟨x, h1, h2⟩ := k1 hr
      exact ⟨x, h1, by rw [h2]⟩
    | succ i =>
      have := ih (n + 1) _ (by rw [← Nat.add_assoc]; exact k3) k4 (by omega) (fun w hw => hall w (by simp [hw])) i w (by simpa using hw)
      simp only [List.getElem?_cons_succ]
      rw [show n + (i + 1) = n + 1 + i by omega]
      exact this

end ChannelProof

/-- C107, the exact result of every read: read number `i` gives what the peer has sent under number `i` if the peer's record number `i` is what arrives, and
DecryptError if it is anything else. -/
theorem C107_exact {code : Nat} {u : Tls13.Suite} {s : TlsStream} {secret : Bytes} {seq : Nat} {sendings : List Tls13.Sending} {records wires : List Bytes} {size : Nat}
    (h : Attacked code u s secret seq sendings records wires size) (i : Nat) (w : Bytes) (hw : wires[i]? = some w) :
    (records[i]? = some w → ∃ x, sendings[i]? = some x ∧ (readResults (List.replicate wires.length (.read size)) s)[i]? = some (expectedRead x)) ∧
    (records[i]? ≠ some w → (readResults (List.replicate wires.length (.read size)) s)[i]? = some (.err .decryptError)) := by
  have := ChannelProof.attacked h.size h.sends h.plain h.sizes h.framed h.unforged h.numbers wires 0 s h.reads h.arrives (by simp) (fun w hw => hw) i w hw
  simpa only [Nat.zero_add] using this

/-- C107 for the attacks that change the number of records: up to record number `k` everything arrives, then come other records, `extra`, and then the peer's
records from number `m` on, where `m` is not the number of records that have arrived. All reads before the attack give what was sent, all reads from then on
fail. Missing: as many records as were removed are inserted (`C107_false`). -/
theorem C107_final_partial {code : Nat} {u : Tls13.Suite} {s : TlsStream} {secret : Bytes} {seq : Nat} {sendings : List Tls13.Sending} {records wires : List Bytes} {size : Nat}
    (h : Attacked code u s secret seq sendings records wires size) (k m : Nat) (extra : List Bytes) (hk : k ≤ records.length)
    (hw : wires = records.take k ++ extra ++ records.drop m) (hm : m ≠ k + extra.length)
    (hn : records.Nodup) (hx : ∀ i w, extra[i]? = some w → records[k + i]? ≠ some w) (i : Nat) (hi : i < wires.length) :
    (i < k → ∃ x, sendings[i]? = some x ∧ (readResults (List.replicate wires.length (.read size)) s)[i]? = some (expectedRead x)) ∧
    (k ≤ i → (readResults (List.replicate wires.length (.read size)) s)[i]? = some (.err .decryptError)) := by
  obtain ⟨w, hwi⟩ : ∃ w, wires[i]? = some w := ⟨_, List.getElem?_eq_getElem hi⟩
  obtain ⟨h1, h2⟩ := C107_exact h i w hwi
  have htk : (records.take k).length = k := by rw [List.length_take]; omega
  refine ⟨fun hik => h1 ?_, fun hki => h2 ?_⟩
  · rw [hw, List.append_assoc, List.getElem?_append_left (by omega), List.getElem?_take_of_lt hik] at hwi
    exact hwi
  · intro hr
    rw [hw, List.append_assoc, List.getElem?_append_right (by omega), htk] at hwi
    by_cases he : i - k < extra.length
    · rw [List.getElem?_append_left he] at hwi
      exact hx (i - k) w hwi (by rw [show k + (i - k) = i by omega]; exact hr)
    · rw [List.getElem?_append_right (by omega), List.getElem?_drop] at hwi
      obtain ⟨l1, g1⟩ := List.getElem?_eq_some_iff.1 hr
      obtain ⟨l2, g2⟩ := List.getElem?_eq_some_iff.1 hwi
      have := (hn.getElem_inj_iff (hi := l1) (hj := l2)).1 (g1.trans g2.symm)
      omega

/-- C107: reading sends nothing, so that the peer does not learn of a failed read. -/
theorem C107_silent (s : TlsStream) (size : Nat) : (s.tlsRead size).2.stream.written = s.stream.written := by
  have ht : (s.tcpRead 4096).2.stream.written = s.stream.written := by
    unfold TlsStream.tcpRead
    split
    · rfl
    · simp only []; split <;> rfl
  unfold TlsStream.tlsRead
  generalize s.tcpRead 4096 = x at ht ⊢
  rcases x with ⟨rx | e | _, s1⟩
  · simp only [] at ht ⊢
    rcases Record.fromRaw rx with ⟨m, r⟩ | e | _
    · simp only []
      split
      · exact ht
      · split
        · rename_i p _
          generalize p.decrypt r = y
          rcases y with ⟨⟨t, pl⟩ | e | _, p'⟩
          · simp only []
            split <;> exact ht
          · exact ht
          · exact ht
        · split <;> exact ht
    · exact ht
    · exact ht
  · exact ht
  · exact ht

namespace ChannelProof

def ct1 : Bytes := beBytes 2 62299
def tag1 : Bytes := beBytes 16 228243317337472334295829757548955717177

theorem sealed1 : aead .poly1305 key1 (Tls13.nonce iv1 1) [8#8, 23#8] (Tls13.protectedHeader 2) = some (ct1, tag1) := by decide +kernel

theorem refused1 : (match Cipher.poly1305.decrypt key1 (Tls13.nonce iv1 0) ct1 (Tls13.protectedHeader 2) tag1 with | .ok _ => true | _ => false) = false := by decide +kernel

/-- The second record of a peer, which does not open under the first number. -/
theorem foreign1 {u : Tls13.Suite} (hu : u = ⟨hashSha256, 32, .chacha20Poly1305⟩) (inner : Bytes) :
    ¬ Tls13.Encloses u.protect key1 iv1 0 inner (Tls13.protectedHeader 2 ++ ct1 ++ tag1) := by
  rintro ⟨header, ct, tag, g1, g2, g3, g4, g5, g6⟩
  have hlib := lib_chacha
  rw [← hu] at hlib
  have hk : KeyOk .chacha20Poly1305Sha256 ⟨[], key1, iv1, 0#64⟩ := ⟨by simp [key1, beBytes_length, CipherSuite.getKeyAndIvLen], by simp [iv1, beBytes_length]⟩
  have h1 : (Tls13.protectedHeader 2).length = 5 := by decide
  have h2 : ct1.length = 2 := by decide
  have h3 : tag1.length = 16 := by decide
  obtain ⟨e1, e2⟩ := List.append_inj' g3 (by omega)
  obtain ⟨e3, e4⟩ := List.append_inj e1 (by omega)
  subst e2 e3 e4
  have hl := (tag_eq g6).1
  have he := protect_eq hlib hk 0 inner (Tls13.protectedHeader 2) (by omega) (by omega) (by omega)
  simp only [] at he
  rw [g6] at he
  rcases C16_only_right_tag .chacha20Poly1305Sha256 .poly1305 rfl key1 (Tls13.nonce iv1 0) ct1 (Tls13.protectedHeader 2) tag1
    (suiteKeys hk _) (by omega) with ⟨pl, k1, _⟩ | ⟨_, k2⟩
  · have := refused1
    rw [k1] at this
    cases this
  · apply k2 inner (by omega)
    unfold aead at he
    split at he
    · rename_i heq; rw [heq, Option.some.inj he]
    · cases he

/-- A peer that sends two records; `wires`, copies of the second, arrive. -/
theorem attack_exists (n : Nat) (hn : n ≤ 2) : ∃ (u : Tls13.Suite) (s : TlsStream) (w0 w1 : Bytes),
    Attacked 0x1303 u s (zeros 32) 0 [.data [7#8], .data [8#8]] [w0, w1] (List.replicate n w1) 10 ∧ w0 ≠ w1 := by
  obtain ⟨u, hu⟩ : ∃ u : Tls13.Suite, u = ⟨hashSha256, 32, .chacha20Poly1305⟩ := ⟨_, rfl⟩
  have hmem : (0x1303, u) ∈ Tls13.suites := by rw [hu]; simp [Tls13.suites]
  have hh : u.hash = hashSha256 := by rw [hu]
  have hkl : u.keyLength = 32 := by rw [hu]
  have hlib := lib_chacha
  rw [← hu] at hlib
  have hk1 : Tls13.writeKey u.hash (zeros 32) u.keyLength = key1 := by rw [hh, hkl, key1_eq]
  have hv1 : Tls13.writeIv u.hash (zeros 32) 12 = iv1 := by rw [hh, iv1_eq]
  obtain ⟨ct0, tag0, e0⟩ : ∃ ct0 tag0, u.protect key1 (Tls13.nonce iv1 0) ([7#8] ++ [23#8] ++ zeros 0) (Tls13.protectedHeader 2) = some (ct0, tag0) := ⟨_, _, rfl⟩
  obtain ⟨l1, l2⟩ := tag_eq e0
  have l1 : ct0.length = 2 := l1
  have hk : KeyOk .chacha20Poly1305Sha256 ⟨[], key1, iv1, 0#64⟩ := ⟨by simp [key1, beBytes_length, CipherSuite.getKeyAndIvLen], by simp [iv1, beBytes_length]⟩
  have e1 : u.protect key1 (Tls13.nonce iv1 1) [8#8, 23#8] (Tls13.protectedHeader 2) = some (ct1, tag1) := by
    rw [← sealed1]
    exact (protect_eq hlib hk 1 [8#8, 23#8] (Tls13.protectedHeader 2) (by decide) (by decide) (by intro; decide)).symm
  have hph : (Tls13.protectedHeader 2).length = 5 := by decide
  have hc1 : ct1.length = 2 := by decide
  have ht1 : tag1.length = 16 := by decide
  obtain ⟨w0, hw0⟩ : ∃ w0, w0 = Tls13.protectedHeader 2 ++ ct0 ++ tag0 := ⟨_, rfl⟩
  obtain ⟨w1, hw1⟩ : ∃ w1, w1 = Tls13.protectedHeader 2 ++ ct1 ++ tag1 := ⟨_, rfl⟩
  have hw0l : w0.length = 23 := by rw [hw0]; simp only [List.length_append]; omega
  have hw1l : w1.length = 23 := by rw [hw1]; simp only [List.length_append]; omega
  obtain ⟨s, h1, h2⟩ := reads_exist hmem (zeros 32) (List.replicate n w1)
  refine ⟨u, s, w0, w1, ⟨h1, by rw [hh]; rfl, ?_, ⟨by simp, by simp [hw0l, hw1l], by simp [hw0l, hw1l]⟩, by simp [Tls13.Sending.content], h2, ?_, ?_, by simp; omega⟩, ?_⟩
  · exact ⟨w0, [w1], rfl, by rw [hk1, hv1]; exact ⟨ct0, tag0, 0, by decide, hw0, e0⟩, w1, [], rfl, by rw [hk1, hv1]; exact ⟨ct1, tag1, 0, by decide, hw1, e1⟩, rfl⟩
  · intro w hw
    rw [List.eq_of_mem_replicate hw]
    exact ⟨23#8, ct1 ++ tag1, by simp, ⟨3#8, 3#8, by rw [List.length_append]; omega, by rw [hw1]; decide⟩, by rw [List.length_append]; omega, by omega⟩
  · intro seq inner w h3 h4 h5 h6
    have h5 := List.eq_of_mem_replicate h5
    subst h5
    rw [hk1, hv1] at h6
    rw [List.length_replicate] at h4
    have : seq = 0 ∨ seq = 1 := by omega
    rcases this with rfl | rfl
    · rw [hw1] at h6
      exact absurd h6 (foreign1 hu inner)
    · rfl
  · intro he
    apply foreign1 hu ([7#8] ++ [23#8] ++ zeros 0)
    rw [← hw1, ← he]
    exact ⟨Tls13.protectedHeader 2, ct0, tag0, hph, l2, hw0, by rw [List.length_append]; omega, by rw [List.length_append, l1, l2]; decide, e0⟩

end ChannelProof

/-- C107 is false: a record is replaced, its read fails, and the next read gives the data after the gap. -/
theorem C107_false : ¬ C107_statement := by
  intro hst
  obtain ⟨u, s, w0, w1, h, hne⟩ := ChannelProof.attack_exists 2 (le_refl 2)
  have h0 := (C107_exact h 0 w1 rfl).2 (by simpa using hne)
  obtain ⟨x, hx, h1⟩ := (C107_exact h 1 w1 rfl).1 rfl
  cases hx
  exact hst _ u s _ 0 _ _ _ _ h 0 1 [8#8] (by omega) h0 h1

/-- The hypotheses of C107_final_partial are met: the first of two records is removed. -/
example : ∃ (u : Tls13.Suite) (s : TlsStream) (records wires : List Bytes), Attacked 0x1303 u s (zeros 32) 0 [.data [7#8], .data [8#8]] records wires 10 ∧
    wires = records.take 0 ++ [] ++ records.drop 1 ∧ records.Nodup ∧ (readResults (List.replicate wires.length (.read 10)) s)[0]? = some (.err .decryptError) := by
  obtain ⟨u, s, w0, w1, h, hne⟩ := ChannelProof.attack_exists 1 (by omega)
  have hd : [w0, w1].Nodup := by simpa using hne
  exact ⟨u, s, [w0, w1], [w1], h, rfl, hd, (C107_final_partial h 0 1 [] (by simp) rfl (by simp) hd (by simp) 0 (by simp)).2 (le_refl 0)⟩

end ATLS
