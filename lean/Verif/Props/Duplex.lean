import Verif.Spec.Calls
import Verif.Props.Stream
/-
C112: reading and writing do not disturb each other.
-/
namespace ATLS
open ATLS.Model ATLS.Spec

namespace DuplexProof

theorem nonce_write {p q : RecordPayloadProtection} {n k : Bytes} (h : p.readNonce = .ok (n, k, q)) :
    q.cipher = p.cipher ∧ (p.writeNonce = .panic → q.writeNonce = .panic) ∧ (∀ e, p.writeNonce = .err e → q.writeNonce = .err e) ∧
      ∀ m j p1, p.writeNonce = .ok (m, j, p1) → p1.cipher = p.cipher ∧ ∃ p3, q.writeNonce = .ok (m, j, p3) ∧ p1.readNonce = .ok (n, k, p3) := by
  obtain ⟨ks, c, hk, cl, ak⟩ := p
  cases cl <;> cases ak with
  | none =>
    cases h1 : (hk.client.getPerRecordNonce : Res TlsError _) <;> cases h2 : (hk.server.getPerRecordNonce : Res TlsError _) <;>
    simp only [RecordPayloadProtection.writeNonce, RecordPayloadProtection.readNonce,
      RecordPayloadProtection.keys, RecordPayloadProtection.setKeys, h1, h2, if_false, if_true, Res.ok_bind, Res.err_bind, Res.panic_bind, Bool.false_eq_true,
      reduceCtorEq, Res.ok.injEq, Prod.mk.injEq] at h
    all_goals (obtain ⟨rfl, rfl, rfl⟩ := h)
    all_goals refine ⟨rfl, ?_, ?_, ?_⟩
    all_goals simp only [RecordPayloadProtection.writeNonce, RecordPayloadProtection.readNonce,
      RecordPayloadProtection.keys, RecordPayloadProtection.setKeys, h1, h2, if_false, if_true, Res.ok_bind, Res.err_bind, Res.panic_bind, Bool.false_eq_true,
      reduceCtorEq, Res.ok.injEq, Prod.mk.injEq, imp_self, forall_const, false_imp_iff, implies_true, Res.err.injEq]
    all_goals (intro m j p1 hp; obtain ⟨rfl, rfl, rfl⟩ := hp; refine ⟨rfl, _, ⟨rfl, rfl, rfl⟩, ?_⟩; simp [h1, h2])
  | some kk =>
    cases h1 : (kk.client.getPerRecordNonce : Res TlsError _) <;> cases h2 : (kk.server.getPerRecordNonce : Res TlsError _) <;>
    simp only [RecordPayloadProtection.writeNonce, RecordPayloadProtection.readNonce,
      RecordPayloadProtection.keys, RecordPayloadProtection.setKeys, h1, h2, if_false, if_true, Res.ok_bind, Res.err_bind, Res.panic_bind, Bool.false_eq_true,
      reduceCtorEq, Res.ok.injEq, Prod.mk.injEq] at h
    all_goals (obtain ⟨rfl, rfl, rfl⟩ := h)
    all_goals refine ⟨rfl, ?_, ?_, ?_⟩
    all_goals simp only [RecordPayloadProtection.writeNonce, RecordPayloadProtection.readNonce,
      RecordPayloadProtection.keys, RecordPayloadProtection.setKeys, h1, h2, if_false, if_true, Res.ok_bind, Res.err_bind, Res.panic_bind, Bool.false_eq_true,
      reduceCtorEq, Res.ok.injEq, Prod.mk.injEq, imp_self, forall_const, false_imp_iff, implies_true, Res.err.injEq]
    all_goals (intro m j p1 hp; obtain ⟨rfl, rfl, rfl⟩ := hp; refine ⟨rfl, _, ⟨rfl, rfl, rfl⟩, ?_⟩; simp [h1, h2])

theorem nonce_read {p q : RecordPayloadProtection} {n k : Bytes} (h : p.writeNonce = .ok (n, k, q)) :
    q.cipher = p.cipher ∧ (p.readNonce = .panic → q.readNonce = .panic) ∧ (∀ e, p.readNonce = .err e → q.readNonce = .err e) := by
  obtain ⟨ks, c, hk, cl, ak⟩ := p
  cases cl <;> cases ak with
  | none =>
    cases h1 : (hk.client.getPerRecordNonce : Res TlsError _) <;> cases h2 : (hk.server.getPerRecordNonce : Res TlsError _) <;>
    simp only [RecordPayloadProtection.writeNonce, RecordPayloadProtection.readNonce,
      RecordPayloadProtection.keys, RecordPayloadProtection.setKeys, h1, h2, if_false, if_true, Res.ok_bind, Res.err_bind, Res.panic_bind, Bool.false_eq_true,
      reduceCtorEq, Res.ok.injEq, Prod.mk.injEq] at h
    all_goals (obtain ⟨rfl, rfl, rfl⟩ := h)
    all_goals refine ⟨rfl, ?_, ?_⟩
    all_goals simp only [RecordPayloadProtection.writeNonce, RecordPayloadProtection.readNonce,
      RecordPayloadProtection.keys, RecordPayloadProtection.setKeys, h1, h2, if_false, if_true, Res.ok_bind, Res.err_bind, Res.panic_bind, Bool.false_eq_true,
      reduceCtorEq, Res.ok.injEq, Prod.mk.injEq, imp_self, forall_const, false_imp_iff, implies_true, Res.err.injEq]
  | some kk =>
    cases h1 : (kk.client.getPerRecordNonce : Res TlsError _) <;> cases h2 : (kk.server.getPerRecordNonce : Res TlsError _) <;>
    simp only [RecordPayloadProtection.writeNonce, RecordPayloadProtection.readNonce,
      RecordPayloadProtection.keys, RecordPayloadProtection.setKeys, h1, h2, if_false, if_true, Res.ok_bind, Res.err_bind, Res.panic_bind, Bool.false_eq_true,
      reduceCtorEq, Res.ok.injEq, Prod.mk.injEq] at h
    all_goals (obtain ⟨rfl, rfl, rfl⟩ := h)
    all_goals refine ⟨rfl, ?_, ?_⟩
    all_goals simp only [RecordPayloadProtection.writeNonce, RecordPayloadProtection.readNonce,
      RecordPayloadProtection.keys, RecordPayloadProtection.setKeys, h1, h2, if_false, if_true, Res.ok_bind, Res.err_bind, Res.panic_bind, Bool.false_eq_true,
      reduceCtorEq, Res.ok.injEq, Prod.mk.injEq, imp_self, forall_const, false_imp_iff, implies_true, Res.err.injEq]

theorem crypt_comm (p : RecordPayloadProtection) (rec out : Record) :
    ((p.decrypt rec).2.encrypt out).1 = (p.encrypt out).1 ∧ ((p.encrypt out).2.decrypt rec).1 = (p.decrypt rec).1 ∧
      ((p.decrypt rec).2.encrypt out).2 = ((p.encrypt out).2.decrypt rec).2 := by
  by_cases hl : rec.fraqment.length < 16
  · simp [RecordPayloadProtection.decrypt, hl]
  cases hr : p.readNonce with
  | panic =>
    cases hw : p.writeNonce with
    | panic => simp [RecordPayloadProtection.decrypt, RecordPayloadProtection.encrypt, hl, hr, hw]
    | err e => simp [RecordPayloadProtection.decrypt, RecordPayloadProtection.encrypt, hl, hr, hw]
    | ok w =>
      obtain ⟨m, j, p1⟩ := w
      obtain ⟨c1, c2, _⟩ := nonce_read hw
      have c2 := c2 hr
      cases he : p.cipher.encrypt j m (out.fraqment ++ [out.contentType.code]) [RecordType.applicationData.code, 3#8, 3#8,
        BitVec.ofNat 8 (((out.fraqment ++ [out.contentType.code]).length + 16) / 256), BitVec.ofNat 8 ((out.fraqment ++ [out.contentType.code]).length + 16)] <;>
        (simp only [RecordPayloadProtection.decrypt, RecordPayloadProtection.encrypt, if_neg hl, hr, hw, he, c2]; exact ⟨by trivial, by trivial, by trivial⟩)
  | err e =>
    cases hw : p.writeNonce with
    | panic => simp [RecordPayloadProtection.decrypt, RecordPayloadProtection.encrypt, hl, hr, hw]
    | err e => simp [RecordPayloadProtection.decrypt, RecordPayloadProtection.encrypt, hl, hr, hw]
    | ok w =>
      obtain ⟨m, j, p1⟩ := w
      obtain ⟨c1, _, c2⟩ := nonce_read hw
      have c2 := c2 e hr
      cases he : p.cipher.encrypt j m (out.fraqment ++ [out.contentType.code]) [RecordType.applicationData.code, 3#8, 3#8,
        BitVec.ofNat 8 (((out.fraqment ++ [out.contentType.code]).length + 16) / 256), BitVec.ofNat 8 ((out.fraqment ++ [out.contentType.code]).length + 16)] <;>
        (simp only [RecordPayloadProtection.decrypt, RecordPayloadProtection.encrypt, if_neg hl, hr, hw, he, c2]; exact ⟨by trivial, by trivial, by trivial⟩)
  | ok r =>
    obtain ⟨n, k, q⟩ := r
    obtain ⟨d1, d2, d3, d4⟩ := nonce_write hr
    cases hd : p.cipher.decrypt k n (rec.fraqment.take (rec.fraqment.length - 16)) rec.header
      (rec.fraqment.drop (rec.fraqment.take (rec.fraqment.length - 16)).length) <;>
    cases hw : p.writeNonce with
    | panic => simp only [RecordPayloadProtection.decrypt, RecordPayloadProtection.encrypt, if_neg hl, hr, hw, d2 hw, hd]; exact ⟨by trivial, by trivial, by trivial⟩
    | err e => simp only [RecordPayloadProtection.decrypt, RecordPayloadProtection.encrypt, if_neg hl, hr, hw, d3 e hw, hd]; exact ⟨by trivial, by trivial, by trivial⟩
    | ok w =>
      obtain ⟨m, j, p1⟩ := w
      obtain ⟨c1, p3, c2, c3⟩ := d4 m j p1 hw
      cases he : p.cipher.encrypt j m (out.fraqment ++ [out.contentType.code]) [RecordType.applicationData.code, 3#8, 3#8,
        BitVec.ofNat 8 (((out.fraqment ++ [out.contentType.code]).length + 16) / 256), BitVec.ofNat 8 ((out.fraqment ++ [out.contentType.code]).length + 16)] <;>
        (simp only [RecordPayloadProtection.decrypt, RecordPayloadProtection.encrypt, if_neg hl, hr, hw, he, hd, c1, c2, c3, d1]; exact ⟨by trivial, by trivial, by trivial⟩)

/-- What a read does, apart from the socket's other direction. -/
def readPart (prot : Option RecordPayloadProtection) (rx : Bytes) (size : Nat) : Res TlsError Bytes × Option RecordPayloadProtection :=
  match Record.fromRaw rx with
  | .err e => (.err e, prot)
  | .panic => (.panic, prot)
  | .ok (_, record) =>
    if record.len ≠ record.fraqment.length then (.panic, prot)
    else match prot with
      | some p =>
        match p.decrypt record with
        | (.err e, p') => (.err e, some p')
        | (.panic, p') => (.panic, some p')
        | (.ok (t, data), p') => if t ≠ .applicationData then (.err .unexpectedMessage, some p') else (TlsStream.deliver (Record.new t data) size, some p')
      | none => if record.contentType ≠ .handshake then (.err .unexpectedMessage, none) else (TlsStream.deliver record size, none)

/-- What a write does. -/
def writePart (prot : Option RecordPayloadProtection) (src : Bytes) : Res TlsError Bytes × Option RecordPayloadProtection :=
  match prot with
  | none => (.err .internalError, none)
  | some p => ((p.encrypt (Record.new .applicationData src)).1, some (p.encrypt (Record.new .applicationData src)).2)

theorem parts_comm (prot : Option RecordPayloadProtection) (rx : Bytes) (size : Nat) (src : Bytes) :
    (writePart (readPart prot rx size).2 src).1 = (writePart prot src).1 ∧ (readPart (writePart prot src).2 rx size).1 = (readPart prot rx size).1 ∧
      (writePart (readPart prot rx size).2 src).2 = (readPart (writePart prot src).2 rx size).2 := by
  unfold readPart
  cases hf : Record.fromRaw rx with
  | err e => exact ⟨rfl, rfl, rfl⟩
  | panic => exact ⟨rfl, rfl, rfl⟩
  | ok v =>
    obtain ⟨u, record⟩ := v
    simp only []
    by_cases hl : record.len ≠ record.fraqment.length
    · simp only [if_pos hl]; exact ⟨by trivial, by trivial, by trivial⟩
    simp only [if_neg hl]
    cases prot with
    | none =>
      simp only [writePart]
      by_cases ht : record.contentType ≠ .handshake
      · simp only [if_pos ht]; exact ⟨by trivial, by trivial, by trivial⟩
      · simp only [if_neg ht]; exact ⟨by trivial, by trivial, by trivial⟩
    | some p =>
      obtain ⟨h1, h2, h3⟩ := crypt_comm p record (Record.new .applicationData src)
      simp only [writePart]
      generalize p.encrypt (Record.new .applicationData src) = e at h1 h2 h3 ⊢
      obtain ⟨er, ep⟩ := e
      simp only [] at h1 h2 h3 ⊢
      generalize p.decrypt record = d at h1 h2 h3 ⊢
      obtain ⟨dr, dp⟩ := d
      simp only [] at h1 h2 h3 ⊢
      generalize ep.decrypt record = d2 at h2 h3 ⊢
      obtain ⟨dr2, dp2⟩ := d2
      simp only [] at h1 h2 h3 ⊢
      subst h2
      subst h3
      rcases dr2 with ⟨t, data⟩ | _ | _
      · by_cases ht : t ≠ .applicationData
        · simp only [if_pos ht, h1]; exact ⟨by trivial, by trivial, by trivial⟩
        · simp only [if_neg ht, h1]; exact ⟨by trivial, by trivial, by trivial⟩
      · simp only [h1]; exact ⟨by trivial, by trivial, by trivial⟩
      · simp only [h1]; exact ⟨by trivial, by trivial, by trivial⟩

theorem read_eq (s : TlsStream) (size : Nat) : s.tlsRead size = match s.stream.incoming with
    | [] => (.err .brokenPipe, s)
    | c :: cs =>
      let inc := if c.drop 4096 = [] then cs else c.drop 4096 :: cs
      if c.take 4096 = [] then (.err .brokenPipe, { s with stream := { s.stream with incoming := inc } })
      else ((readPart s.protection (c.take 4096) size).1,
        { s with stream := { s.stream with incoming := inc }, protection := (readPart s.protection (c.take 4096) size).2 }) := by
  obtain ⟨⟨inc, f, w⟩, prot, buf⟩ := s
  unfold TlsStream.tlsRead TlsStream.tcpRead readPart
  cases inc with
  | nil => rfl
  | cons c cs =>
    simp only []
    by_cases hg : c.take 4096 = []
    · simp only [if_pos hg]
    simp only [if_neg hg]
    cases hf : Record.fromRaw (c.take 4096) with
    | err e => rfl
    | panic => rfl
    | ok v =>
      obtain ⟨u, record⟩ := v
      simp only []
      by_cases hl : record.len ≠ record.fraqment.length
      · simp only [if_pos hl]
      simp only [if_neg hl]
      cases prot with
      | none =>
        simp only []
        by_cases ht : record.contentType ≠ .handshake
        · simp only [if_pos ht]
        · simp only [if_neg ht]
      | some p =>
        simp only []
        rcases p.decrypt record with ⟨⟨t, data⟩ | _ | _, p'⟩
        · simp only []
          by_cases ht : t ≠ .applicationData
          · simp only [if_pos ht]
          · simp only [if_neg ht]
        · rfl
        · rfl

theorem write_eq (s : TlsStream) (src : Bytes) : s.tlsWrite src = match (writePart s.protection src).1 with
    | .err e => (.err e, { s with protection := (writePart s.protection src).2 })
    | .panic => (.panic, { s with protection := (writePart s.protection src).2 })
    | .ok record => (if (s.stream.writeAll record).1 then .ok () else .err .brokenPipe,
        { s with stream := (s.stream.writeAll record).2, protection := (writePart s.protection src).2 }) := by
  obtain ⟨sock, prot, buf⟩ := s
  unfold TlsStream.tlsWrite writePart
  cases prot with
  | none => rfl
  | some p =>
    simp only []
    rcases p.encrypt (Record.new .applicationData src) with ⟨_ | _ | _, p'⟩
    · simp only []
      rcases sock.writeAll _ with ⟨_ | _, sock'⟩ <;> rfl
    · rfl
    · rfl

theorem writeAll_eq (inc inc' : List Bytes) (f : List (Option Nat)) (w b : Bytes) :
    (Socket.writeAll ⟨inc', f, w⟩ b).1 = (Socket.writeAll ⟨inc, f, w⟩ b).1 ∧
      (Socket.writeAll ⟨inc', f, w⟩ b).2 = { (Socket.writeAll ⟨inc, f, w⟩ b).2 with incoming := inc' } ∧ (Socket.writeAll ⟨inc, f, w⟩ b).2.incoming = inc := by
  unfold Socket.writeAll
  by_cases hb : b = []
  · simp only [if_pos hb]; exact ⟨by trivial, by trivial, by trivial⟩
  simp only [if_neg hb]
  rcases f with _ | ⟨_ | k, f⟩ <;> exact ⟨rfl, rfl, rfl⟩

/-- A read and a write may be exchanged. -/
theorem io_comm (s : TlsStream) (size : Nat) (src : Bytes) :
    ((s.tlsRead size).2.tlsWrite src).1 = (s.tlsWrite src).1 ∧ ((s.tlsWrite src).2.tlsRead size).1 = (s.tlsRead size).1 ∧
      ((s.tlsRead size).2.tlsWrite src).2 = ((s.tlsWrite src).2.tlsRead size).2 := by
  have hin : (s.tlsWrite src).2.stream.incoming = s.stream.incoming := by
    rw [write_eq]
    obtain ⟨⟨inc, f, w⟩, prot, buf⟩ := s
    rcases (writePart prot src).1 with r | _ | _
    · exact (writeAll_eq inc inc f w r).2.2
    · rfl
    · rfl
  have hprot : (s.tlsWrite src).2.protection = (writePart s.protection src).2 := by
    rw [write_eq]
    rcases (writePart s.protection src).1 with r | _ | _ <;> rfl
  rw [read_eq s, read_eq (s.tlsWrite src).2, hin, hprot]
  obtain ⟨⟨inc, f, w⟩, prot, buf⟩ := s
  cases inc with
  | nil => exact ⟨rfl, rfl, rfl⟩
  | cons c cs =>
    simp only []
    generalize (if c.drop 4096 = [] then cs else c.drop 4096 :: cs) = inc'
    by_cases hg : c.take 4096 = []
    · simp only [if_pos hg]
      rw [write_eq, write_eq]
      simp only []
      rcases (writePart prot src).1 with r | _ | _
      · obtain ⟨a1, a2, a3⟩ := writeAll_eq (c :: cs) inc' f w r
        simp only [a1, a2]; exact ⟨by trivial, by trivial, by trivial⟩
      · exact ⟨by trivial, by trivial, by trivial⟩
      · exact ⟨by trivial, by trivial, by trivial⟩
    · simp only [if_neg hg]
      obtain ⟨b1, b2, b3⟩ := parts_comm prot (c.take 4096) size src
      rw [write_eq, write_eq]
      simp only [b1, b2, b3]
      rcases (writePart prot src).1 with r | _ | _
      · obtain ⟨a1, a2, a3⟩ := writeAll_eq (c :: cs) inc' f w r
        simp only [a1, a2]; exact ⟨by trivial, by trivial, by trivial⟩
      · exact ⟨by trivial, by trivial, by trivial⟩
      · exact ⟨by trivial, by trivial, by trivial⟩

section
variable {σ ρ ω : Type} {read : σ → Nat → ρ × σ} {write : σ → Bytes → ω × σ}

theorem reads_read (n : Nat) (l : List IoCall) : IoCall.reads (.read n :: l) = n :: IoCall.reads l := rfl
theorem reads_write (b : Bytes) (l : List IoCall) : IoCall.reads (.write b :: l) = IoCall.reads l := rfl
theorem writes_read (n : Nat) (l : List IoCall) : IoCall.writes (.read n :: l) = IoCall.writes l := rfl
theorem writes_write (b : Bytes) (l : List IoCall) : IoCall.writes (.write b :: l) = b :: IoCall.writes l := rfl

/-- A write before some reads may be moved behind them. -/
theorem write_reads (hc : ∀ s n b, (write (read s n).2 b).1 = (write s b).1 ∧ (read (write s b).2 n).1 = (read s n).1 ∧
    (write (read s n).2 b).2 = (read (write s b).2 n).2) (b : Bytes) : ∀ (l : List Nat) (s : σ),
    (ioRun read write (write s b).2 (l.map .read)).1 = (ioRun read write s (l.map .read)).1 ∧
      (ioRun read write (write s b).2 (l.map .read)).2 = (write (ioRun read write s (l.map .read)).2 b).2 ∧
      (write (ioRun read write s (l.map .read)).2 b).1 = (write s b).1
  | [], s => ⟨rfl, rfl, rfl⟩
  | n :: l, s => by
    obtain ⟨c1, c2, c3⟩ := hc s n b
    obtain ⟨i1, i2, i3⟩ := write_reads hc b l (read s n).2
    simp only [List.map_cons, ioRun]
    rw [← c3, c2]
    exact ⟨by rw [i1], i2, by rw [i3, c1]⟩

/-- Calls in any order: the same as all reads and then all writes. -/
theorem run_split (hc : ∀ s n b, (write (read s n).2 b).1 = (write s b).1 ∧ (read (write s b).2 n).1 = (read s n).1 ∧
    (write (read s n).2 b).2 = (read (write s b).2 n).2) : ∀ (l : List IoCall) (s : σ),
    IoResult.reads (ioRun read write s l).1 = IoResult.reads (ioRun read write s ((IoCall.reads l).map .read)).1 ∧
      IoResult.writes (ioRun read write s l).1 = IoResult.writes (ioRun read write s ((IoCall.writes l).map .write)).1 ∧
      (ioRun read write s l).2 = (ioRun read write (ioRun read write s ((IoCall.reads l).map .read)).2 ((IoCall.writes l).map .write)).2
  | [], s => ⟨rfl, rfl, rfl⟩
  | .read n :: l, s => by
    obtain ⟨i1, i2, i3⟩ := run_split hc l (read s n).2
    have key : ∀ (l : List Bytes) (s : σ), (ioRun read write (read s n).2 (l.map .write)).1 = (ioRun read write s (l.map .write)).1 := by
      intro l
      induction l with
      | nil => intro s; rfl
      | cons b l ih =>
        intro s
        obtain ⟨c1, c2, c3⟩ := hc s n b
        simp only [List.map_cons, ioRun]
        rw [c1, c3, ih (write s b).2]
    rw [reads_read, writes_read]
    refine ⟨?_, ?_, i3⟩
    · exact congrArg (List.cons (read s n).1) i1
    · rw [← key]
      exact i2
  | .write b :: l, s => by
    obtain ⟨i1, i2, i3⟩ := run_split hc l (write s b).2
    obtain ⟨j1, j2, j3⟩ := write_reads hc b (IoCall.reads l) s
    rw [reads_write, writes_write]
    refine ⟨?_, ?_, ?_⟩
    · rw [← j1]
      exact i1
    · exact congrArg (List.cons (write s b).1) i2
    · rw [j2] at i3
      exact i3

end
end DuplexProof

/-- C112: calls of `tls_read` and `tls_write` in any order on a stream in any state. The reads return what they would return without the writes, the writes
return what they would return without the reads, and the connection (what was sent, what was consumed, the sequence numbers) is at last as if all
reads had been made first and then all writes. -/
theorem C112_independent (s : TlsStream) (calls : List IoCall) :
    let all := ioRun TlsStream.tlsRead TlsStream.tlsWrite s calls
    let reads := ioRun TlsStream.tlsRead TlsStream.tlsWrite s ((IoCall.reads calls).map .read)
    let writes := ioRun TlsStream.tlsRead TlsStream.tlsWrite s ((IoCall.writes calls).map .write)
    IoResult.reads all.1 = IoResult.reads reads.1 ∧ IoResult.writes all.1 = IoResult.writes writes.1 ∧
      all.2 = (ioRun TlsStream.tlsRead TlsStream.tlsWrite reads.2 ((IoCall.writes calls).map .write)).2 :=
  DuplexProof.run_split DuplexProof.io_comm calls s

/-- Two ways to interleave the same reads and the same writes: the same results, the same bytes sent and the same state. -/
theorem C112_any_order (s : TlsStream) (calls calls' : List IoCall) (hr : IoCall.reads calls = IoCall.reads calls') (hw : IoCall.writes calls = IoCall.writes calls') :
    IoResult.reads (ioRun TlsStream.tlsRead TlsStream.tlsWrite s calls).1 = IoResult.reads (ioRun TlsStream.tlsRead TlsStream.tlsWrite s calls').1 ∧
      IoResult.writes (ioRun TlsStream.tlsRead TlsStream.tlsWrite s calls).1 = IoResult.writes (ioRun TlsStream.tlsRead TlsStream.tlsWrite s calls').1 ∧
      (ioRun TlsStream.tlsRead TlsStream.tlsWrite s calls).2 = (ioRun TlsStream.tlsRead TlsStream.tlsWrite s calls').2 := by
  obtain ⟨a1, a2, a3⟩ := C112_independent s calls
  obtain ⟨b1, b2, b3⟩ := C112_independent s calls'
  rw [← hr] at b1 b3
  rw [← hw] at b2 b3
  exact ⟨a1.trans b1.symm, a2.trans b2.symm, a3.trans b3.symm⟩

/-- The calls of the theorems may all succeed: a server writes, reads what a client sent, and writes again. -/
example : (ioRun TlsStream.tlsRead TlsStream.tlsWrite
      ⟨⟨[(TlsStream.tlsWrite ⟨⟨[], [], []⟩, some (RecProof.zeroProt true), []⟩ [7#8]).2.stream.written], [], []⟩, some (RecProof.zeroProt false), []⟩
      [.write [1#8], .read 10, .write [2#8]]).1 = [.write (.ok ()), .read (.ok [7#8]), .write (.ok ())] := by
  decide +kernel

/-- And two orders of them are two different lists of calls. -/
example : IoCall.reads [.write [1#8], .read 10, .write [2#8]] = IoCall.reads [.read 10, .write [1#8], .write [2#8]] ∧
    IoCall.writes [.write [1#8], .read 10, .write [2#8]] = IoCall.writes [.read 10, .write [1#8], .write [2#8]] := ⟨rfl, rfl⟩

end ATLS
