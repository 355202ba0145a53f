import Verif.Spec.KeyLimit
import Verif.Props.BrokenWrites
import Verif.Props.Transport
import Verif.Props.RfcClientExample
/-
C117: how long a key is used.
-/
namespace ATLS
open ATLS.Spec ATLS.Model ATLS.KsProof ATLS.RecProof FlowProof RfcProof

/-- C117 for the suites satisfying `P`: whatever the application calls, if what goes out for the writes that succeed are data records under one key (without a
KeyUpdate between them), then they are no more than RFC 8446 allows for one key. -/
def C117_for (P : Nat → Prop) : Prop :=
  ∀ (code : Nat) (u : Tls13.Suite) (s : TlsStream) (secret : Bytes) (calls : List Call) (records : List Bytes), P code → WritesTo code u s secret 0 →
    secret.length = u.hash.out → (afterCalls calls s).stream.written = s.stream.written ++ records.flatten →
    Tls13.Sends u secret 0 ((reported calls s).map .data) records → (reported calls s).length ≤ Tls13.recordLimit code

/-- C117 in full. -/
def C117_statement : Prop := C117_for fun _ => True

namespace LimitProof

theorem nonce_seq {k k' : Key} {n : Bytes} (h : (k.getPerRecordNonce : Res TlsError (Bytes × Key)) = .ok (n, k')) :
    k'.sequenceNumber.toNat = k.sequenceNumber.toNat + 1 := by
  unfold Key.getPerRecordNonce at h
  simp only [] at h
  split at h
  · cases h
  · rename_i hne
    cases h
    have : k.sequenceNumber.toNat ≠ 2 ^ 64 - 1 := fun e => hne (BitVec.eq_of_toNat_eq (by rw [e]; rfl))
    have := k.sequenceNumber.isLt
    show (k.sequenceNumber + 1#64).toNat = _
    rw [BitVec.toNat_add]
    simp only [BitVec.toNat_ofNat]
    omega

theorem writeNonce_seq {p p' : RecordPayloadProtection} {a b : Bytes} (h : p.writeNonce = .ok (a, b, p')) :
    (wKey p').sequenceNumber.toNat = (wKey p).sequenceNumber.toNat + 1 := by
  unfold RecordPayloadProtection.writeNonce at h
  unfold wKey
  split at h <;> rename_i hb <;> obtain ⟨⟨n, k⟩, h1, h2⟩ := Res.bind_eq_ok.1 h <;> cases h2 <;> simpa [hb] using nonce_seq h1

/-- A write never takes a sequence number back, and one that succeeds uses one up. -/
theorem write_seq {s : TlsStream} {p : RecordPayloadProtection} (hp : s.protection = some p) (d : Bytes) : ∃ q, (s.tlsWrite d).2.protection = some q ∧
    (wKey p).sequenceNumber.toNat ≤ (wKey q).sequenceNumber.toNat ∧
    ((s.tlsWrite d).1 = .ok () → (wKey p).sequenceNumber.toNat + 1 ≤ (wKey q).sequenceNumber.toNat) := by
  have he : (wKey p).sequenceNumber.toNat ≤ (wKey (p.encrypt (Record.new .applicationData d)).2).sequenceNumber.toNat ∧
      ((∃ w, (p.encrypt (Record.new .applicationData d)).1 = .ok w) →
        (wKey p).sequenceNumber.toNat + 1 ≤ (wKey (p.encrypt (Record.new .applicationData d)).2).sequenceNumber.toNat) := by
    unfold RecordPayloadProtection.encrypt
    simp only []
    rcases hn : p.writeNonce with ⟨a, b, p'⟩ | e | _
    · have := writeNonce_seq hn
      simp only []
      split <;> simp only [] <;> refine ⟨by omega, fun _ => by omega⟩
    · exact ⟨le_rfl, fun ⟨_, h⟩ => by cases h⟩
    · exact ⟨le_rfl, fun ⟨_, h⟩ => by cases h⟩
  unfold TlsStream.tlsWrite
  simp only [hp]
  rcases hx : p.encrypt (Record.new .applicationData d) with ⟨_ | _ | _, p'⟩ <;> rw [hx] at he <;> simp only []
  · split
    · exact ⟨p', rfl, he.1, fun _ => he.2 ⟨_, rfl⟩⟩
    · exact ⟨p', rfl, he.1, fun h => by cases h⟩
  · exact ⟨p', rfl, he.1, fun h => by cases h⟩
  · exact ⟨p', rfl, he.1, fun h => by cases h⟩

end LimitProof

open LimitProof

/-- C117, for every suite and all calls: no more writes succeed on a stream than there are sequence numbers left. -/
theorem C117_count (calls : List Call) : ∀ (s : TlsStream) (p : RecordPayloadProtection), s.protection = some p →
    (wKey p).sequenceNumber.toNat + (reported calls s).length < 2 ^ 64 := by
  induction calls with
  | nil => exact fun s p _ => (wKey p).sequenceNumber.isLt
  | cons c calls ih =>
    intro s p hp
    cases c with
    | read n =>
      obtain ⟨_, _, q, r3, r4, _⟩ := ChannelProof.read_write s p hp n
      have := ih _ q r3
      rw [r4] at this
      exact this
    | write d =>
      obtain ⟨q, h1, h2, h3⟩ := write_seq hp d
      have := ih _ q h1
      unfold reported
      split
      · rename_i h
        have := h3 h
        rw [List.length_cons]
        omega
      · omega

/-- C117 for ChaCha20-Poly1305. -/
theorem C117_chacha_partial : C117_for (· = 0x1303) := by
  rintro code u s secret calls records rfl ⟨_, p, _, hp, _⟩ _ _ _
  have := C117_count calls s p hp
  show _ ≤ if _ then _ else _
  rw [if_pos rfl]
  omega

/-- The key is never changed: any number of records below 2^63 goes out under the first one, and every write succeeds. -/
theorem C117_never_changed (code : Nat) (u : Tls13.Suite) (s : TlsStream) (secret : Bytes) (n : Nat) (data : Bytes) (h : WritesTo code u s secret 0)
    (hsec : secret.length = u.hash.out) (hf : s.stream.failures = []) (hn : n < 2 ^ 63) (hd : data.length ≤ 2 ^ 14) (h64 : code = 0x1303 → data.length % 64 ≠ 63) :
    ∃ records, reported (List.replicate n (.write data)) s = List.replicate n data ∧ Tls13.Sends u secret 0 (List.replicate n (.data data)) records ∧
      (afterCalls (List.replicate n (.write data)) s).stream.written = s.stream.written ++ records.flatten ∧
      WritesTo code u (afterCalls (List.replicate n (.write data)) s) secret n := by
  have hpl : ∀ n, payloads (List.replicate n (.write data)) = List.replicate n data := by
    intro n
    induction n with
    | zero => rfl
    | succ n ih => rw [List.replicate_succ, List.replicate_succ, ← ih]; rfl
  have hwent : ∀ ws, Tls13.went [] ws = ws := by
    intro ws
    induction ws with
    | nil => rfl
    | cons w ws ih => unfold Tls13.went; rw [ih]
  have hrep : ∀ n (s : TlsStream) (q : Nat), WritesTo code u s secret q → s.stream.failures = [] → q + n < 2 ^ 63 →
      reported (List.replicate n (.write data)) s = List.replicate n data := by
    intro n
    induction n with
    | zero => intros; rfl
    | succ n ih =>
      intro s q h hf hq
      obtain ⟨w, w1, _, _, w4, w5, _⟩ := ChannelProof.write_any h hsec (by omega) data hd h64
      rw [hf] at w4 w5
      rw [List.replicate_succ, List.replicate_succ]
      unfold reported
      rw [if_pos w5, ih _ (q + 1) w1 w4 (by omega)]
  obtain ⟨records, a, b, _, d⟩ := C96_wire code u secret hsec (List.replicate n (.write data)) s 0 h (by rw [hpl, List.length_replicate]; omega)
    (by rw [hpl]; exact ⟨fun x hx => by rw [List.eq_of_mem_replicate hx]; exact hd, fun hc x hx => by rw [List.eq_of_mem_replicate hx]; exact h64 hc⟩)
  rw [hf, hwent] at b
  rw [hpl, List.map_replicate] at a
  rw [hpl, List.length_replicate, Nat.zero_add] at d
  exact ⟨records, hrep n s 0 h hf (by omega), a, b, d⟩

/-- For AES-GCM the limit is not kept. -/
theorem C117_false : ¬ C117_statement := by
  intro H
  obtain ⟨u, hmem, hout⟩ : ∃ u, (0x1301, u) ∈ Tls13.suites ∧ u.hash.out = 32 := ⟨_, List.mem_cons_self .., rfl⟩
  obtain ⟨s, h1, h2⟩ := ChannelProof.writes_exist hmem (zeros 32) []
  have hsec : (zeros 32).length = u.hash.out := by rw [hout]; simp [zeros]
  have hl : (zeros (2 ^ 14)).length = 2 ^ 14 := zeros_length _
  generalize zeros (2 ^ 14) = data at hl
  obtain ⟨n, hn⟩ : ∃ n, n = 23726567 := ⟨_, rfl⟩
  obtain ⟨records, a, b, c, _⟩ := C117_never_changed 0x1301 u s (zeros 32) n data h1 hsec (by rw [h2]) (by omega) (by omega) (fun h => by cases h)
  have := H 0x1301 u s (zeros 32) (List.replicate n (.write data)) records trivial h1 hsec c (by rw [a, List.map_replicate]; exact b)
  rw [a, List.length_replicate] at this
  have hr : Tls13.recordLimit 0x1301 = 23726566 := rfl
  omega

/-- After every handshake with an AES-GCM suite on a connection that takes what is written, one full-size record more than RFC 8446 allows goes out under the
server's application traffic secret of the handshake. -/
theorem C117_after_accept (env : ServerEnv) (reads : List Bytes) (sock : Socket) (s : TlsStream) (h : ServerHandshake) (hc : env.config.cert.raw.length < 2 ^ 24)
    (ha : ServerConnection.accept env reads sock = (.ok s, h)) (hf : s.stream.failures = []) (data : Bytes) (hd : data.length = 2 ^ 14) :
    ∃ r context auth fin tail u, Accepted env reads sock s r context auth fin tail ∧ (r.x.cs.asU16, u) ∈ Tls13.suites ∧
      (r.x.cs.asU16 ≠ 0x1303 → ∃ records, Tls13.Sends u (r.x.sess.appSecret r.transcript .server) 0 (List.replicate (Tls13.recordLimit r.x.cs.asU16 + 1) (.data data)) records ∧
        (afterCalls (List.replicate (Tls13.recordLimit r.x.cs.asU16 + 1) (.write data)) s).stream.written = s.stream.written ++ records.flatten) := by
  obtain ⟨r, context, auth, fin, tail, u, A, hmem, _, _, _, hw⟩ := C89_after_accept env reads sock s h hc ha
  refine ⟨r, context, auth, fin, tail, u, A, hmem, fun hcode => ?_⟩
  have hlim : Tls13.recordLimit r.x.cs.asU16 = 23726566 := if_neg hcode
  have hpl : ∀ n, payloads (List.replicate n (.write data)) = List.replicate n data := by
    intro n
    induction n with
    | zero => rfl
    | succ n ih => rw [List.replicate_succ, List.replicate_succ, ← ih]; rfl
  rw [hlim]
  obtain ⟨n, hn⟩ : ∃ n, n = 23726566 + 1 := ⟨_, rfl⟩
  rw [← hn]
  obtain ⟨_, records, b, _, d⟩ := hw (List.replicate n (.write data)) hf (by rw [hpl, List.length_replicate]; omega) (by
    rw [hpl]
    exact ⟨fun x hx => by rw [List.eq_of_mem_replicate hx]; omega, fun hc => absurd hc hcode⟩)
  rw [hpl, List.map_replicate] at b
  exact ⟨records, b, d⟩

/-- The hypotheses of `C117_chacha_partial` and `C117_never_changed` are met by a stream of each suite; writes on it succeed. -/
example (code : Nat) (u : Tls13.Suite) (hmem : (code, u) ∈ Tls13.suites) : ∃ s records, WritesTo code u s (zeros u.hash.out) 0 ∧ s.stream.failures = [] ∧
    (afterCalls (List.replicate 1000 (.write (ascii "data"))) s).stream.written = s.stream.written ++ records.flatten ∧
    (reported (List.replicate 1000 (.write (ascii "data"))) s).length = 1000 ∧
    Tls13.Sends u (zeros u.hash.out) 0 ((reported (List.replicate 1000 (.write (ascii "data"))) s).map .data) records := by
  obtain ⟨s, h1, h2⟩ := ChannelProof.writes_exist hmem (zeros u.hash.out) []
  obtain ⟨records, a, b, c, _⟩ := C117_never_changed code u s (zeros u.hash.out) 1000 (ascii "data") h1 (zeros_length _) (by rw [h2]) (by norm_num) (by decide)
    (fun _ => by decide)
  exact ⟨s, records, h1, by rw [h2], c, by rw [a, List.length_replicate], by rw [a, List.map_replicate]; exact b⟩

/-- The example server after a handshake with an RFC 8446 client that offers AES-128-GCM, on a connection that takes everything, meets the hypotheses of
`C117_after_accept`; its stream writes with AES-128-GCM and so goes beyond the limit. -/
example (data : Bytes) (hd : data.length = 2 ^ 14) : ∃ env reads sock s h u secret records, ServerConnection.accept env reads sock = (.ok s, h) ∧
    env.config.cert.raw.length < 2 ^ 24 ∧ s.stream.failures = [] ∧ WritesTo 0x1301 u s secret 0 ∧
    Tls13.Sends u secret 0 (List.replicate (Tls13.recordLimit 0x1301 + 1) (.data data)) records ∧
    (afterCalls (List.replicate (Tls13.recordLimit 0x1301 + 1) (.write data)) s).stream.written = s.stream.written ++ records.flatten := by
  obtain ⟨x, ks, r, s, r', s', contents, records, _, _, _, _, _, hmore⟩ := C81_example true
  obtain ⟨str, h, h1, _, h3, _, h5⟩ := hmore []
  have hr : Tls13.recordLimit 0x1301 + 1 = 23726566 + 1 := rfl
  obtain ⟨n, hn⟩ : ∃ n, n = 23726566 + 1 := ⟨_, rfl⟩
  rw [hr, ← hn]
  obtain ⟨records, _, b, c, _⟩ := C117_never_changed _ _ str _ n data h3.writes h3.ownSize h5 (by omega) (by omega) (fun h => by cases h)
  exact ⟨_, _, _, str, h, _, _, records, h1, (show (Spec.X509.certificate ownTbs ownR ownS).length < 2 ^ 24 by decide +kernel), h5, h3.writes, b, c⟩

end ATLS
