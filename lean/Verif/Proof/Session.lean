import Verif.Proof.EarlyClient
/-
Supporting lemmas for C77: any sequence of writes and reads on one end of a connection.
-/
namespace ATLS
open ATLS.Model ATLS.Spec

/-- What the application does with a stream. -/
inductive Op where
  | write (m : Bytes)
  | read

/-- The payloads written. -/
def Op.payloads : List Op → List Bytes
  | [] => []
  | .write m :: l => m :: Op.payloads l
  | .read :: l => Op.payloads l

/-- The number of reads. -/
def Op.reads : List Op → Nat
  | [] => 0
  | .write _ :: l => Op.reads l
  | .read :: l => Op.reads l + 1

/-- The calls `ops` of `tls_write` and of `tls_read` with a buffer of `bufLen` bytes, one after the other, until one fails: what the reads returned, and
the stream. -/
def perform (bufLen : Nat) : TlsStream → List Op → Res TlsError (List Bytes × TlsStream)
  | s, [] => .ok ([], s)
  | s, .write m :: l =>
    match s.tlsWrite m with
    | (.ok (), s') => perform bufLen s' l
    | (.err e, _) => .err e
    | (.panic, _) => .panic
  | s, .read :: l =>
    match s.tlsRead bufLen with
    | (.ok x, s') => do
      let (xs, s'') ← perform bufLen s' l
      .ok (x :: xs, s'')
    | (.err e, _) => .err e
    | (.panic, _) => .panic

namespace SessionProof
open FlowProof RecProof EarlyProof

theorem appRecords_data {a : Tls13.Seal} {key iv : Bytes} : ∀ {seq : Nat} {ms ws : List Bytes}, (∀ m ∈ ms, m.length ≤ 2 ^ 14) → Tls13.AppRecords a key iv seq ms ws →
    Tls13.AppData a key iv seq ms ws
  | _, [], _, _, h => h
  | _, m :: ms, _, hm, ⟨ct, tag, rest, h1, rfl, h2⟩ =>
    ⟨_, rest, rfl, ⟨ct, tag, 0, by have := hm m List.mem_cons_self; omega, rfl, by simpa [zeros] using h1⟩, appRecords_data (fun m' h => hm m' (List.mem_cons_of_mem _ h)) h2⟩

theorem appRecords_unique {a : Tls13.Seal} {key iv : Bytes} : ∀ {seq : Nat} {ms w w' : List Bytes}, Tls13.AppRecords a key iv seq ms w → Tls13.AppRecords a key iv seq ms w' → w = w'
  | _, [], _, _, h, h' => Eq.trans h (Eq.symm h')
  | seq, m :: ms, w, w', ⟨ct, tag, rest, h1, h2, h3⟩, ⟨ct', tag', rest', h1', h2', h3'⟩ => by
    rw [h1] at h1'
    obtain ⟨rfl, rfl⟩ := Prod.mk.inj (Option.some.inj h1')
    rw [h2, h2', appRecords_unique h3 h3']

theorem appRecords_exists {cs : CipherSuite} {c : Cipher} (hc : cs.getCipher = .ok c) {k : Key} (hk : KeyOk cs k) : ∀ (seq : Nat) (payloads : List Bytes),
    (∀ m ∈ payloads, m.length ≤ 2 ^ 14) → ∃ data, Tls13.AppRecords (aead c) k.key k.iv seq payloads data ∧ List.Forall₂ (fun w m => w.length = m.length + 22) data payloads
  | _, [], _ => ⟨[], rfl, .nil⟩
  | seq, m :: ms, h => by
    obtain ⟨data, h1, h2⟩ := appRecords_exists hc hk (seq + 1) ms (fun x hx => h x (List.mem_cons_of_mem _ hx))
    have hm := h m List.mem_cons_self
    obtain ⟨ct, tag, g1, g2, g3, _⟩ := C15_aead_round_trip cs c hc k.key (Tls13.nonce k.iv seq) (m ++ [23#8])
      (Tls13.protectedHeader (m.length + 1)) (suiteKeys hk _) (by simp [Tls13.protectedHeader, beBytes_length]; omega)
    refine ⟨_, ⟨ct, tag, data, ?_, rfl, h1⟩, .cons ?_ h2⟩
    · unfold aead
      rw [g1]
    · simp [g2, g3, Tls13.protectedHeader, beBytes_length]
      omega

/-- One end of a connection, with application data waiting in its socket. -/
structure End (cs : CipherSuite) (s : TlsStream) (p : RecordPayloadProtection) (room : Nat) : Prop where
  prot : s.protection = some p
  cipher : cs.getCipher = .ok p.cipher
  write : KeyOk cs (wKey p)
  read : KeyOk cs (rKey p)
  wseq : (wKey p).sequenceNumber.toNat + room < 2 ^ 63
  rseq : (rKey p).sequenceNumber.toNat + room < 2 ^ 63
  sock : s.stream.failures = []

theorem read_one {cs : CipherSuite} (bufLen : Nat) {s : TlsStream} {p : RecordPayloadProtection} {room : Nat} (h : End cs s p (room + 1)) {x w : Bytes} {rest : List Bytes}
    (hw : Tls13.Protected (aead p.cipher) (rKey p).key (rKey p).iv (rKey p).sequenceNumber.toNat 23#8 x w) (hx : x.length ≤ bufLen) (hwl : w.length ≤ 4096)
    (hi : s.stream.incoming = w :: rest) :
    ∃ s' p', s.tlsRead bufLen = (.ok x, s') ∧ End cs s' p' room ∧ s'.stream.incoming = rest ∧ s'.stream.written = s.stream.written ∧ p'.cipher = p.cipher ∧
      wKey p' = wKey p ∧ (rKey p').key = (rKey p).key ∧ (rKey p').iv = (rKey p).iv ∧ (rKey p').sequenceNumber.toNat = (rKey p).sequenceNumber.toNat + 1 := by
  have hr := h.rseq
  have hwq := h.wseq
  obtain ⟨r, p', g1, g2, g3, g4, g5⟩ := opens_key h.cipher h.read (by omega) (t := .applicationData) (by decide) hw
  have hne : w ≠ [] := by
    obtain ⟨ct, tag, n, _, rfl, _⟩ := hw
    simp [Tls13.protectedHeader]
  have hseq := next_seq (k := rKey p) (by omega)
  refine ⟨{ s with stream := { s.stream with incoming := rest }, protection := some p' }, p', ?_, ⟨rfl, by rw [g5.cipher]; exact h.cipher, by rw [g5.w]; exact h.write,
    by rw [g5.r]; exact h.read, by rw [g5.w]; omega, by rw [g5.r, hseq]; omega, h.sock⟩, rfl, rfl, g5.cipher, g5.w, by rw [g5.r]; rfl, by rw [g5.r]; rfl, by rw [g5.r, hseq]⟩
  unfold TlsStream.tlsRead TlsStream.tcpRead
  rw [hi]
  have htk : w.take 4096 = w := List.take_of_length_le hwl
  have hdr : w.drop 4096 = [] := List.drop_of_length_le hwl
  simp only [htk, hdr]
  rw [if_neg hne]
  simp only []
  rw [g1]
  simp only []
  rw [if_neg (by rw [g3]; simp), h.prot]
  simp only []
  rw [g4]
  simp only [ne_eq, not_true, if_false]
  rw [deliver_eq _ _ _ hx]
  simp

theorem write_one {cs : CipherSuite} {s : TlsStream} {p : RecordPayloadProtection} {room : Nat} (h : End cs s p (room + 1)) {m : Bytes} (hm : m.length ≤ 2 ^ 14) :
    ∃ s' p' ct tag, s.tlsWrite m = (.ok (), s') ∧ End cs s' p' room ∧ s'.stream.incoming = s.stream.incoming ∧ p'.cipher = p.cipher ∧
      aead p.cipher (wKey p).key (Tls13.nonce (wKey p).iv (wKey p).sequenceNumber.toNat) (m ++ [23#8]) (Tls13.protectedHeader (m.length + 1)) = some (ct, tag) ∧
      s'.stream.written = s.stream.written ++ (Tls13.protectedHeader (m.length + 1) ++ ct ++ tag) ∧
      rKey p' = rKey p ∧ (wKey p').key = (wKey p).key ∧ (wKey p').iv = (wKey p).iv ∧ (wKey p').sequenceNumber.toNat = (wKey p).sequenceNumber.toNat + 1 := by
  have hr := h.rseq
  have hwq := h.wseq
  obtain ⟨w, s', p', h1, h2, h3, h4, ⟨ct, tag, rfl, h5, _⟩, h6⟩ := tlsWrite_spec (s := s) (p := p) (cs := cs) ⟨h.prot, h.cipher, h.write, by omega, h.sock⟩ m (by omega)
  have hseq := next_seq (k := wKey p) (by omega)
  refine ⟨s', p', ct, tag, h1, ⟨h4, by rw [h6.cipher]; exact h.cipher, by rw [h6.w]; exact h.write, by rw [h6.r]; exact h.read, by rw [h6.w, hseq]; omega, by rw [h6.r]; omega, by
    rw [h2]; exact h.sock⟩, by rw [h2], h6.cipher, ?_, ?_, h6.r, by rw [h6.w]; rfl, by rw [h6.w]; rfl, by rw [h6.w, hseq]⟩
  · have h5' : p.cipher.encrypt (wKey p).key (Tls13.nonce (wKey p).iv (wKey p).sequenceNumber.toNat) (m ++ [23#8]) (Tls13.protectedHeader (m.length + 1)) = .ok (ct, tag) := by
      simpa [zeros, Tls13.protectedHeader, RecordType.code] using h5
    unfold aead
    rw [h5']
  · rw [h2]
    simp [Tls13.protectedHeader]

/-- Any calls, when enough data waits in the socket, one record per read. -/
theorem perform_spec {cs : CipherSuite} (bufLen : Nat) : ∀ (ops : List Op) (payloads data later : List Bytes) (s : TlsStream) (p : RecordPayloadProtection) (room : Nat),
    End cs s p room → ops.length ≤ room → Tls13.AppData (aead p.cipher) (rKey p).key (rKey p).iv (rKey p).sequenceNumber.toNat payloads data →
    (∀ x ∈ payloads, x.length ≤ bufLen) → (∀ w ∈ data, w.length ≤ 4096) → s.stream.incoming = data ++ later → Op.reads ops ≤ payloads.length →
    (∀ m ∈ Op.payloads ops, m.length ≤ 2 ^ 14) →
    ∃ s' recs, perform bufLen s ops = .ok (payloads.take (Op.reads ops), s') ∧ s'.stream.written = s.stream.written ++ recs.flatten ∧
      Tls13.AppRecords (aead p.cipher) (wKey p).key (wKey p).iv (wKey p).sequenceNumber.toNat (Op.payloads ops) recs
  | [], payloads, data, later, s, p, room, _, _, _, _, _, _, _, _ => ⟨s, [], by simp [perform, Op.reads], by simp, rfl⟩
  | .write m :: ops, payloads, data, later, s, p, room, h, hl, hd, hx, hw, hi, hr, hm => by
    rw [List.length_cons] at hl
    obtain ⟨room, rfl⟩ : ∃ n, room = n + 1 := ⟨room - 1, by omega⟩
    obtain ⟨s1, p1, ct, tag, e1, e2, e3, e4, e5, e6, e7, e8, e9, e10⟩ := write_one h (hm m (by simp [Op.payloads]))
    obtain ⟨s', recs, f1, f2, f3⟩ := perform_spec bufLen ops payloads data later s1 p1 room e2 (by omega) (by rw [e4, e7]; exact hd) hx hw (by rw [e3, hi]) hr
      (fun m' h' => hm m' (by simp [Op.payloads, h']))
    refine ⟨s', (Tls13.protectedHeader (m.length + 1) ++ ct ++ tag) :: recs, ?_, by rw [f2, e6, List.flatten_cons, List.append_assoc], ct, tag, recs, e5, rfl, ?_⟩
    · rw [perform, e1]
      exact f1
    · rw [e4, e8, e9, e10] at f3
      exact f3
  | .read :: ops, [], data, later, s, p, room, h, hl, hd, hx, hw, hi, hr, hm => by simp [Op.reads] at hr
  | .read :: ops, x :: xs, _, later, s, p, room, h, hl, ⟨w, rest, rfl, hd1, hd2⟩, hx, hw, hi, hr, hm => by
    rw [List.length_cons] at hl
    simp only [Op.reads, List.length_cons] at hr
    obtain ⟨room, rfl⟩ : ∃ n, room = n + 1 := ⟨room - 1, by omega⟩
    obtain ⟨s1, p1, e1, e2, e3, e4, e5, e6, e7, e8, e9⟩ := read_one bufLen h hd1 (hx x (by simp)) (hw w (by simp)) (rest := rest ++ later) hi
    obtain ⟨s', recs, f1, f2, f3⟩ := perform_spec bufLen ops xs rest later s1 p1 room e2 (by omega) (by rw [e5, e7, e8, e9]; exact hd2)
      (fun y hy => hx y (by simp [hy])) (fun v hv => hw v (by simp [hv])) e3 (by omega) hm
    refine ⟨s', recs, ?_, by rw [f2, e4], by rw [e5, e6] at f3; exact f3⟩
    rw [perform, e1]
    simp only []
    rw [f1]
    simp [Op.reads, Res.ok_bind]

end SessionProof
end ATLS
