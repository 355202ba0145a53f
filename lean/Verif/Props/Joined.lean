import Verif.Props.Channel
/-
C23: exactly when everything written is read back.
-/
namespace ATLS
open ATLS.Spec ATLS.Model ATLS.KsProof ATLS.RecProof ChannelProof

namespace JoinProof

/-- `recs` are the records of `payloads`, one each, from the key's position on. -/
def Records (c : Cipher) : Key → List Bytes → List Bytes → Prop
  | _, [], [] => True
  | k, x :: xs, y :: ys => Sealed c k .applicationData x 0 y ∧ Records c (next k) xs ys
  | _, _, _ => False

theorem sealed_length {c : Cipher} {k : Key} {t : RecordType} {x y : Bytes} (h : Sealed c k t x 0 y) : y.length = x.length + 22 := by
  obtain ⟨ct, tag, hw, _, hl1, hl2⟩ := h
  rw [hw]; simp [hl1, hl2]; omega

theorem Records.lengths {c : Cipher} : ∀ {k : Key} {xs ys : List Bytes}, Records c k xs ys → ys.map List.length = xs.map (fun x => x.length + 22)
  | _, [], [], _ => rfl
  | _, _ :: _, _ :: _, h => by
    rw [List.map_cons, List.map_cons, sealed_length h.1, Records.lengths h.2]
  | _, [], _ :: _, h => h.elim
  | _, _ :: _, [], h => h.elim

theorem writes {cs : CipherSuite} : ∀ (payloads : List Bytes) (w : TlsStream) (p : RecordPayloadProtection), w.protection = some p →
    cs.getCipher = .ok p.cipher → KeyOk cs (wKey p) → w.stream.failures = [] → (∀ x ∈ payloads, x.length ≤ 2 ^ 14) →
    (wKey p).sequenceNumber.toNat + payloads.length < 2 ^ 64 →
    ∃ w' recs, writePayloads w payloads = .ok w' ∧ w'.stream.written = w.stream.written ++ recs.flatten ∧ Records p.cipher (wKey p) payloads recs
  | [], w, _, _, _, _, _, _, _ => ⟨w, [], rfl, by simp, trivial⟩
  | x :: xs, w, p, hp, hc, hk, hf, hx, hs => by
    rw [List.length_cons] at hs
    obtain ⟨rec, w1, p1, h1, h2, _, h4, h5, h6⟩ := tlsWrite_spec ⟨hp, hc, hk, by omega, hf⟩ x (by have := hx x (by simp); omega)
    have hseq : (next (wKey p)).sequenceNumber.toNat = (wKey p).sequenceNumber.toNat + 1 := next_seq (by omega)
    obtain ⟨w2, recs, g1, g2, g3⟩ := writes xs w1 p1 h4 (by rw [h6.cipher]; exact hc) (by rw [h6.w]; exact hk) (by rw [h2]; exact hf)
      (fun y hy => hx y (by simp [hy])) (by rw [h6.w, hseq]; omega)
    refine ⟨w2, rec :: recs, ?_, ?_, h5, ?_⟩
    · rw [writePayloads, h1]; exact g1
    · rw [g2, h2]; simp
    · rw [h6.cipher, h6.w] at g3; exact g3

theorem reads {cs : CipherSuite} (bufLen : Nat) : ∀ (payloads recs rest : List Bytes) (r : TlsStream) (q : RecordPayloadProtection), r.protection = some q →
    cs.getCipher = .ok q.cipher → KeyOk cs (rKey q) → Records q.cipher (rKey q) payloads recs → r.stream.incoming = recs ++ rest →
    (∀ x ∈ recs, x.length ≤ 4096) → (∀ x ∈ payloads, x.length ≤ bufLen) → (rKey q).sequenceNumber.toNat + payloads.length < 2 ^ 64 →
    readPayloads bufLen r payloads.length = .ok payloads
  | [], _, _, _, _, _, _, _, _, _, _, _, _ => rfl
  | _ :: _, [], _, _, _, _, _, _, h, _, _, _, _ => h.elim
  | x :: xs, rec :: recs, rest, r, q, hp, hc, hk, hr, hin, hl, hb, hs => by
    rw [List.length_cons] at hs
    have hreclen := sealed_length hr.1
    have hl0 := hl rec (by simp)
    have hx2 := hb x (by simp)
    have hseq : (next (rKey q)).sequenceNumber.toNat = (rKey q).sequenceNumber.toNat + 1 := next_seq (by omega)
    have hne : (rKey q).sequenceNumber ≠ BitVec.allOnes 64 := Readable.ne (cs := cs) ⟨hc, hk, by omega⟩
    obtain ⟨rd, q', d1, d2, d3, d4, d5, d6⟩ := decrypt_spec cs q hc hk hne .applicationData (by decide) x 0 rec [] (by omega) hr.1
    rw [List.append_nil] at d1
    rw [List.cons_append] at hin
    have hread : r.tlsRead bufLen =
        (.ok x, { r with stream := { r.stream with incoming := recs ++ rest }, protection := some q' }) := by
      unfold TlsStream.tlsRead TlsStream.tcpRead
      rw [hin]
      have htk : rec.take 4096 = rec := List.take_of_length_le (by omega)
      have hdr : rec.drop 4096 = [] := List.drop_of_length_le (by omega)
      have hrne : rec ≠ [] := by intro e; rw [e] at hreclen; simp at hreclen
      simp only [htk, hdr]
      rw [if_neg hrne]
      simp only []
      rw [d1]
      simp only []
      rw [if_neg (by rw [d3]; simp)]
      rw [hp]
      simp only []
      rw [d5]
      simp only [ne_eq, not_true, if_false]
      rw [deliver_eq _ _ _ hx2]
      simp
    have := reads (cs := cs) bufLen xs recs rest { r with stream := { r.stream with incoming := recs ++ rest }, protection := some q' } q' rfl
      (by rw [d6.cipher]; exact hc) (by rw [d6.r]; exact hk) (by rw [d6.cipher, d6.r]; exact hr.2) rfl (fun y hy => hl y (by simp [hy]))
      (fun y hy => hb y (by simp [hy])) (by rw [d6.r, hseq]; omega)
    rw [List.length_cons, readPayloads, hread]
    simp only []
    rw [this]; rfl

/-- A read that succeeds has used a whole record. -/
theorem used {cs : CipherSuite} {s s' : TlsStream} {p : RecordPayloadProtection} (hp : s.protection = some p) (h : Readable cs p) {bufLen : Nat}
    {data : Bytes} (hr : s.tlsRead bufLen = (.ok data, s')) :
    data.length ≤ bufLen ∧ ∃ rx rest, s.stream.incoming = rx :: rest ∧ data.length + 22 ≤ (rx.take 4096).length ∧
      s'.stream.incoming = if rx.drop 4096 = [] then rest else rx.drop 4096 :: rest := by
  unfold TlsStream.tlsRead at hr
  cases hi : s.stream.incoming with
  | nil => unfold TlsStream.tcpRead at hr; rw [hi] at hr; cases hr
  | cons c rest =>
    have ht : s.tcpRead 4096 = (.ok (c.take 4096), { s with stream := { s.stream with incoming := if c.drop 4096 = [] then rest else c.drop 4096 :: rest } }) ∨
        ∃ e, (s.tcpRead 4096).1 = .err e := by
      unfold TlsStream.tcpRead
      rw [hi]
      simp only []
      split_ifs <;> simp
    rcases ht with ht | ⟨e, ht⟩
    swap
    · rcases hq : s.tcpRead 4096 with ⟨a, b⟩
      rw [hq] at ht hr
      simp only [] at ht
      subst ht
      cases hr
    rw [ht] at hr
    simp only [] at hr
    cases hf : Record.fromRaw (c.take 4096) with
    | err e => rw [hf] at hr; cases hr
    | panic => rw [hf] at hr; cases hr
    | ok nr =>
      obtain ⟨n, r⟩ := nr
      rw [hf] at hr
      obtain ⟨b0, b1, b2, b3, b4, tl, hrx, hhd, _, hlen, hflen, _⟩ := fromRaw_inv _ n r hf
      simp only [hflen, ne_eq, not_true_eq_false, if_false, hp] at hr
      cases hd : p.decrypt r with
      | mk res p' =>
        rw [hd] at hr
        cases res with
        | err e => cases hr
        | panic => cases hr
        | ok td =>
          obtain ⟨t, pl⟩ := td
          simp only [] at hr
          by_cases hty : t = .applicationData
          swap
          · rw [if_pos hty] at hr; cases hr
          · rw [if_neg (not_not.2 hty)] at hr
            simp only [Prod.mk.injEq] at hr
            obtain ⟨hdl, hs'⟩ := hr
            unfold TlsStream.deliver at hdl
            split_ifs at hdl with hb
            have hdl := Res.ok.inj hdl
            simp only [Record.new] at hdl hb
            subst hdl
            subst hty
            have b3lt := b3.isLt
            have b4lt := b4.isLt
            obtain ⟨ct, tag, inner, e1, e2, _, e6, e4⟩ := C62_only_authentic cs p p' h r ⟨by rw [hhd]; rfl, by rw [hflen, hlen]; omega⟩ _ _ hd
            rcases e4 with ⟨_, k, e5⟩ | ⟨e5, _⟩
            · refine ⟨by omega, c, rest, rfl, ?_, by rw [← hs']⟩
              rw [hrx, e1]
              have := congrArg List.length e5
              simp only [List.length_append, List.length_singleton] at this
              simp only [List.length_append, hhd, List.length_cons, List.length_nil]
              omega
            · cases e5

/-- Successful reads of `payloads` used at least one read of at least the record's size for each. -/
theorem consumed {cs : CipherSuite} (bufLen : Nat) : ∀ (payloads segs : List Bytes) (r : TlsStream) (q : RecordPayloadProtection), r.protection = some q →
    cs.getCipher = .ok q.cipher → KeyOk cs (rKey q) → r.stream.incoming = segs → (∀ x ∈ segs, x.length ≤ 4096) →
    (rKey q).sequenceNumber.toNat + payloads.length < 2 ^ 64 → readPayloads bufLen r payloads.length = .ok payloads →
    (∀ x ∈ payloads, x.length ≤ bufLen) ∧ ∃ rest, ∃ used : List Bytes, segs = used ++ rest ∧
      List.Forall₂ (fun x y => x.length + 22 ≤ y.length) payloads used
  | [], segs, _, _, _, _, _, _, _, _, _ => ⟨by simp, segs, [], rfl, .nil⟩
  | x :: xs, segs, r, q, hp, hc, hk, hin, hl, hs, hok => by
    rw [List.length_cons] at hs
    have hread : Readable cs q := ⟨hc, hk, by omega⟩
    have hseq : (next (rKey q)).sequenceNumber.toNat = (rKey q).sequenceNumber.toNat + 1 := next_seq (by omega)
    rw [List.length_cons, readPayloads] at hok
    obtain ⟨q', k1, k2, _, _, k3, _⟩ := tlsRead_keys hp hread bufLen
    rcases he : r.tlsRead bufLen with ⟨res, r'⟩
    rw [he] at hok k1 k3
    cases res with
    | err e => cases hok
    | panic => cases hok
    | ok y =>
      simp only [] at hok k1 k3
      obtain ⟨zs, hz, hok⟩ := Res.bind_eq_ok.1 hok
      have hok := Res.ok.inj hok
      injection hok with e1 e2
      subst e1; subst e2
      obtain ⟨hb, rx, rest, u1, u2, u3⟩ := used hp hread he
      rw [hin] at u1
      subst u1
      have hrx := hl rx (by simp)
      rw [if_pos (List.drop_of_length_le hrx)] at u3
      rw [List.take_of_length_le hrx] at u2
      have hkey := k3 ⟨_, rfl⟩
      obtain ⟨hbs, rest', used', v1, v2⟩ := consumed (cs := cs) bufLen zs rest r' q' k1 (by rw [k2]; exact hc) (by rw [hkey]; exact hk) u3
        (fun y hy => hl y (by simp [hy])) (by rw [hkey, hseq]; omega) hz
      refine ⟨?_, rest', rx :: used', by rw [v1]; rfl, .cons u2 v2⟩
      intro z hz
      rcases List.mem_cons.1 hz with rfl | hz
      · exact hb
      · exact hbs z hz

/-- Pieces at least as long as the records they hold together are the records. -/
theorem squeeze {c : Cipher} : ∀ {k : Key} {payloads recs used : List Bytes} {rest : Bytes}, Records c k payloads recs →
    List.Forall₂ (fun x y => x.length + 22 ≤ y.length) payloads used → used.flatten ++ rest = recs.flatten → used = recs ∧ rest = []
  | _, [], [], [], _, _, _, h => ⟨rfl, h⟩
  | k, x :: xs, y :: ys, u :: us, rest, hr, .cons h1 h2, h => by
    have hlen : ∀ {k : Key} {xs ys us : List Bytes}, Records c k xs ys → List.Forall₂ (fun x y => x.length + 22 ≤ y.length) xs us →
        ys.flatten.length ≤ us.flatten.length := by
      intro k xs
      induction xs generalizing k with
      | nil =>
        intro ys us hr hf
        cases hf
        cases ys with
        | nil => simp
        | cons _ _ => exact hr.elim
      | cons a as ih =>
        intro ys us hr hf
        cases hf with
        | cons g1 g2 =>
          cases ys with
          | nil => exact hr.elim
          | cons b bs =>
            have := ih hr.2 g2
            have := sealed_length hr.1
            simp only [List.flatten_cons, List.length_append]
            omega
    have hl := hlen hr.2 h2
    have hy := sealed_length hr.1
    have htot := congrArg List.length h
    simp only [List.flatten_cons, List.length_append] at htot
    have hu : u.length = y.length := by omega
    rw [List.flatten_cons, List.flatten_cons, List.append_assoc] at h
    obtain ⟨e1, e2⟩ := List.append_inj h hu
    obtain ⟨e3, e4⟩ := squeeze hr.2 h2 e2
    exact ⟨by rw [e1, e3], e4⟩
  | _, [], _ :: _, _, _, h, _, _ => h.elim
  | _, _ :: _, [], _, _, h, _, _ => h.elim

end JoinProof
open JoinProof

/-- C23, exactly when the data arrives: payloads of up to 2^14 bytes are written and become the records `recs`, one for each payload and 22 bytes
longer than it. The network delivers the bytes of these records in reads of one to 4096 bytes, the size of the reader's buffer. As many `tls_read`
calls as there were writes return exactly the payloads if and only if every read holds exactly one record and the caller's buffer is large enough
for every payload. So with any record cut, or any two joined, the data is not what was written. -/
theorem C23_exact (cs : CipherSuite) (w r : TlsStream) (p q : RecordPayloadProtection) (payloads : List Bytes) (bufLen : Nat) (hc : Connected cs w p r q)
    (hx : ∀ x ∈ payloads, x.length ≤ 2 ^ 14) (hs : (wKey p).sequenceNumber.toNat + payloads.length < 2 ^ 64) :
    ∃ w' recs, writePayloads w payloads = .ok w' ∧ w'.stream.written = w.stream.written ++ recs.flatten ∧
      recs.map List.length = payloads.map (fun x => x.length + 22) ∧
      ((∀ x ∈ r.stream.incoming, x ≠ [] ∧ x.length ≤ 4096) → r.stream.incoming.flatten = recs.flatten →
        (readPayloads bufLen r payloads.length = .ok payloads ↔ r.stream.incoming = recs ∧ ∀ x ∈ payloads, x.length ≤ bufLen)) := by
  obtain ⟨w', recs, h1, h2, h3⟩ := writes payloads w p hc.writer.prot hc.writer.cipher hc.writer.sizes hc.writer.sock hx hs
  have hcq : cs.getCipher = .ok q.cipher := by rw [hc.cipher]; exact hc.writer.cipher
  have hkq : KeyOk cs (rKey q) := by rw [hc.keys]; exact hc.writer.sizes
  refine ⟨w', recs, h1, h2, h3.lengths, fun hl hfl => ⟨fun hok => ?_, fun ⟨hin, hb⟩ => ?_⟩⟩
  · obtain ⟨hb, rest, us, e1, e2⟩ := consumed (cs := cs) bufLen payloads _ r q hc.reader hcq hkq rfl (fun x hx => (hl x hx).2) (by rw [hc.keys]; exact hs) hok
    rw [e1, List.flatten_append] at hfl
    obtain ⟨e3, e4⟩ := squeeze h3 e2 hfl
    refine ⟨?_, hb⟩
    have : rest = [] := by
      cases rest with
      | nil => rfl
      | cons y ys =>
        have := (hl y (by rw [e1]; simp)).1
        simp [this] at e4
    rw [e1, e3, this, List.append_nil]
  · exact reads (cs := cs) bufLen payloads recs [] r q hc.reader hcq hkq (by rw [hc.cipher, hc.keys]; exact h3) (by rw [hin, List.append_nil])
      (fun x hx => (hl x (by rw [hin]; exact hx)).2) hb (by rw [hc.keys]; exact hs)

/-- Three payloads written on two connected streams. -/
example (inc : List Bytes) : ∃ w' recs, writePayloads ⟨⟨[], [], []⟩, some (zeroProt true), []⟩ [[1#8], [], [2#8, 3#8]] = .ok w' ∧
    w'.stream.written = recs.flatten ∧ recs.map List.length = [23, 22, 24] ∧
    ((∀ x ∈ inc, x ≠ [] ∧ x.length ≤ 4096) → inc.flatten = recs.flatten →
      (readPayloads 100 ⟨⟨inc, [], []⟩, some (zeroProt false), []⟩ 3 = .ok [[1#8], [], [2#8, 3#8]] ↔ inc = recs)) := by
  obtain ⟨w', recs, h1, h2, h3, h4⟩ := C23_exact .chacha20Poly1305Sha256 ⟨⟨[], [], []⟩, some (zeroProt true), []⟩
    ⟨⟨inc, [], []⟩, some (zeroProt false), []⟩ (zeroProt true) (zeroProt false) [[1#8], [], [2#8, 3#8]] 100
    ⟨⟨rfl, rfl, ⟨by decide, by decide⟩, by decide, rfl⟩, rfl, rfl, rfl⟩ (by decide) (by decide)
  exact ⟨w', recs, h1, by simpa using h2, h3, fun a b => (h4 a b).trans ⟨fun h => h.1, fun h => ⟨h, by decide⟩⟩⟩

end ATLS
