import Verif.Props.RecordOpen
/-
C66: what `tls_read` hands to the application.
-/
namespace ATLS
open ATLS.Spec ATLS.Model ATLS.KsProof ATLS.RecProof

namespace RecProof

/-- A parsed record is exactly the bytes it was parsed from. -/
theorem fromRaw_inv (buf : Bytes) (n : Nat) (r : Record) (h : Record.fromRaw buf = .ok (n, r)) :
    ∃ (b0 b1 b2 b3 b4 : Byte) (rest : Bytes), buf = r.header ++ r.fraqment ++ rest ∧ r.header = [b0, b1, b2, b3, b4] ∧
      RecordType.new b0 = (.ok r.contentType : Res TlsError _) ∧ r.len = b3.toNat * 256 + b4.toNat ∧ r.fraqment.length = r.len ∧
      n = 5 + r.len := by
  match buf, h with
  | [], h | [_], h | [_, _], h | [_, _, _], h | [_, _, _, _], h => simp [Record.fromRaw] at h
  | b0 :: b1 :: b2 :: b3 :: b4 :: rest, h =>
    unfold Record.fromRaw at h
    rw [if_neg (by simp)] at h
    simp only [idx, List.getElem?_cons_zero, List.getElem?_cons_succ, Res.ok_bind] at h
    obtain ⟨ct, hct, h⟩ := Res.bind_eq_ok.1 h
    split_ifs at h with h1
    obtain ⟨hd, hhd, h⟩ := Res.bind_eq_ok.1 h
    obtain ⟨f, hf, h⟩ := Res.bind_eq_ok.1 h
    unfold slice at hhd hf
    rw [if_pos (by simp)] at hhd
    split_ifs at hf with h2
    have hhd := Res.ok.inj hhd
    have hf := Res.ok.inj hf
    have h := Prod.mk.inj (Res.ok.inj h)
    have hr := h.2
    subst hr
    simp only [List.drop_zero, List.take_succ_cons, List.take_zero] at hhd hf
    subst hhd
    simp only [List.drop_succ_cons, List.drop_zero] at hf
    have h2' : 5 + (b3.toNat * 256 + b4.toNat) ≤ rest.length + 5 := by simpa using h2.2
    rw [show 5 + (b3.toNat * 256 + b4.toNat) - 5 = b3.toNat * 256 + b4.toNat by omega] at hf
    refine ⟨b0, b1, b2, b3, b4, rest.drop (b3.toNat * 256 + b4.toNat), ?_, rfl, hct, rfl, ?_, h.1.symm⟩
    · rw [← hf]; simp
    · rw [← hf, List.length_take]; simp only []; omega

theorem tcpRead_inv (s s' : TlsStream) (cap : Nat) (rx : Bytes) (h : s.tcpRead cap = (.ok rx, s')) :
    (∃ c cs, s.stream.incoming = c :: cs ∧ rx = c.take cap) ∧ s'.protection = s.protection := by
  unfold TlsStream.tcpRead at h
  cases hi : s.stream.incoming with
  | nil => rw [hi] at h; cases h
  | cons c cs =>
    rw [hi] at h
    simp only [] at h
    split_ifs at h <;> cases h <;> exact ⟨⟨_, _, rfl, rfl⟩, rfl⟩

end RecProof

/-- The bytes of the next TCP read of `tls_read` (at most 4096). -/
def nextRead (s : TlsStream) (rx : Bytes) : Prop := ∃ c cs, s.stream.incoming = c :: cs ∧ rx = c.take 4096

/-- C66: whenever `tls_read` on a protected stream returns data, the bytes just received start with a record whose body is the AEAD encryption,
under the peer's key, the nonce of the current sequence number and with the record's own header as additional data, of exactly this data, the
content type application_data (23) and padding. So alerts, handshake messages, empty inner plaintexts and anything not encrypted by the peer are
never handed to the application, the data is never cut to the caller's buffer, and it fits into it. -/
theorem C66_read_authentic (cs : CipherSuite) (s s' : TlsStream) (p : RecordPayloadProtection) (hp : s.protection = some p)
    (h : Readable cs p) (bufLen : Nat) (data : Bytes) (hr : s.tlsRead bufLen = (.ok data, s')) :
    data.length ≤ bufLen ∧ ∃ (rx header ct tag rest : Bytes) (n : Nat), nextRead s rx ∧ rx = header ++ (ct ++ tag) ++ rest ∧ header.length = 5 ∧
      tag.length = 16 ∧ (ct ++ tag).length = beNat (header.drop 3) ∧
      p.cipher.encrypt (rKey p).key (Tls13.nonce (rKey p).iv (rKey p).sequenceNumber.toNat) (data ++ [23#8] ++ zeros n) header = .ok (ct, tag) := by
  unfold TlsStream.tlsRead at hr
  cases ht : s.tcpRead 4096 with
  | mk res s1 =>
    cases res with
    | err e => rw [ht] at hr; cases hr
    | panic => rw [ht] at hr; cases hr
    | ok rx =>
      obtain ⟨hn, hpr⟩ := tcpRead_inv s s1 4096 rx ht
      rw [ht] at hr
      simp only [] at hr
      cases hf : Record.fromRaw rx with
      | err e => rw [hf] at hr; cases hr
      | panic => rw [hf] at hr; cases hr
      | ok nr =>
        obtain ⟨n, r⟩ := nr
        rw [hf] at hr
        obtain ⟨b0, b1, b2, b3, b4, rest, hrx, hhd, _, hlen, hflen, _⟩ := fromRaw_inv rx n r hf
        simp only [hflen, ne_eq, not_true_eq_false, if_false, hpr, hp] at hr
        cases hd : p.decrypt r with
        | mk res p' =>
          rw [hd] at hr
          cases res with
          | err e => cases hr
          | panic => cases hr
          | ok td =>
            obtain ⟨t, pl⟩ := td
            simp only [] at hr
            by_cases hty : t = .applicationData
            swap
            · rw [if_pos hty] at hr; cases hr
            · rw [if_neg (not_not.2 hty)] at hr
              simp only [Prod.mk.injEq] at hr
              have hdl := hr.1
              unfold TlsStream.deliver at hdl
              split_ifs at hdl with hb
              have hdl := Res.ok.inj hdl
              simp only [Record.new] at hdl hb
              subst hdl
              subst hty
              have b3lt := b3.isLt
              have b4lt := b4.isLt
              obtain ⟨ct, tag, inner, e1, e2, e3, _, e4⟩ := C62_only_authentic cs p p' h r ⟨by rw [hhd]; rfl, by rw [hflen, hlen]; omega⟩ _ _ hd
              rcases e4 with ⟨_, k, e5⟩ | ⟨e5, _⟩
              · refine ⟨by omega, rx, r.header, ct, tag, rest, k, hn, by rw [← e1]; exact hrx, by rw [hhd]; rfl, e2, ?_, ?_⟩
                · rw [← e1, hflen, hlen, hhd]; simp [beNat]
                · rw [e5] at e3; exact e3
              · cases e5

/-- C66, the other half: before protection is installed, the only thing `tls_read` can return is the whole fragment of a plaintext handshake
record; a plaintext application-data record is never delivered. -/
theorem C66_unprotected (s s' : TlsStream) (hp : s.protection = none) (bufLen : Nat) (data : Bytes)
    (hr : s.tlsRead bufLen = (.ok data, s')) :
    data.length ≤ bufLen ∧ ∃ (rx rest : Bytes) (v1 v2 l1 l2 : Byte), nextRead s rx ∧ rx = [22#8, v1, v2, l1, l2] ++ data ++ rest ∧
      data.length = l1.toNat * 256 + l2.toNat := by
  unfold TlsStream.tlsRead at hr
  cases ht : s.tcpRead 4096 with
  | mk res s1 =>
    cases res with
    | err e => rw [ht] at hr; cases hr
    | panic => rw [ht] at hr; cases hr
    | ok rx =>
      obtain ⟨hn, hpr⟩ := tcpRead_inv s s1 4096 rx ht
      rw [ht] at hr
      simp only [] at hr
      cases hf : Record.fromRaw rx with
      | err e => rw [hf] at hr; cases hr
      | panic => rw [hf] at hr; cases hr
      | ok nr =>
        obtain ⟨n, r⟩ := nr
        rw [hf] at hr
        obtain ⟨b0, b1, b2, b3, b4, rest, hrx, hhd, hty, hlen, hflen, _⟩ := fromRaw_inv rx n r hf
        simp only [hflen, ne_eq, not_true_eq_false, if_false, hpr, hp] at hr
        by_cases hct : r.contentType = .handshake
        swap
        · rw [if_pos hct] at hr; cases hr
        · rw [if_neg (not_not.2 hct)] at hr
          simp only [Prod.mk.injEq] at hr
          have hdl := hr.1
          unfold TlsStream.deliver at hdl
          split_ifs at hdl with hb
          have hdl := Res.ok.inj hdl
          subst hdl
          have hb0 : b0 = 22#8 := by
            rw [hct] at hty
            unfold RecordType.new at hty
            split_ifs at hty with a1 a2 a3 a4 a5 <;> first | exact a4 | cases hty | (exact a3) | skip
          refine ⟨by omega, rx, rest, b1, b2, b3, b4, hn, ?_, ?_⟩
          · rw [← hb0]; rw [hhd] at hrx; exact hrx
          · omega

/-- Without protection a plaintext handshake record is indeed returned, and an application-data record is not. -/
example : ((TlsStream.new ⟨[[22, 3, 3, 0, 2, 7, 8]], [], []⟩).tlsRead 10).1 = .ok [7, 8] ∧
    ((TlsStream.new ⟨[[23, 3, 3, 0, 2, 7, 8]], [], []⟩).tlsRead 10).1 = .err .unexpectedMessage := by decide +kernel

/-- A protected read that succeeds: the record the peer of the all-zero key writes for `[1, 2, 3]` is delivered. -/
example : (({ TlsStream.new ⟨[(({ TlsStream.new ⟨[], [], []⟩ with protection := some (zeroProt false) }).tlsWrite [1, 2, 3]).2.stream.written], [],
    []⟩ with protection := some (zeroProt true) } : TlsStream).tlsRead 3).1 = .ok [1, 2, 3] := by
  decide +kernel

end ATLS
