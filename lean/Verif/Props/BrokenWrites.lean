import Verif.Props.Writing
/-
C96: writes on a connection that does not take everything.
-/
namespace ATLS
open ATLS.Spec ATLS.Model ATLS.KsProof ATLS.RecProof FlowProof RfcProof

/-- What is on the wire of records sent over a socket with these outcomes: `none` takes the record, `some k` fails after at most `k` bytes. -/
def Spec.Tls13.went : List (Option Nat) → List Bytes → List Bytes
  | _, [] => []
  | [], w :: ws => w :: went [] ws
  | none :: fs, w :: ws => w :: went fs ws
  | some k :: fs, w :: ws => w.take k :: went fs ws

/-- The payloads whose write reported success. -/
def reported : List Call → TlsStream → List Bytes
  | [], _ => []
  | .read n :: cs, s => reported cs (s.tlsRead n).2
  | .write data :: cs, s => if (s.tlsWrite data).1 = .ok () then data :: reported cs (s.tlsWrite data).2 else reported cs (s.tlsWrite data).2

/-- C96 for the histories of outcomes satisfying `P` (which may depend on the number of writes): whatever part of the writes the socket takes, what is on
the wire are protected records of RFC 8446 with exactly the payloads reported as written, in order, and after them at most the beginning of one more
record. -/
def C96_for (P : Nat → List (Option Nat) → Prop) : Prop :=
  ∀ (code : Nat) (u : Tls13.Suite) (s : TlsStream) (secret : Bytes) (seq : Nat) (calls : List Call),
    WritesTo code u s secret seq → secret.length = u.hash.out → seq + (payloads calls).length < 2 ^ 63 → Short code (payloads calls) →
    P (payloads calls).length s.stream.failures →
    ∃ (records : List Bytes) (tail : Bytes), Tls13.Sends u secret seq ((reported calls s).map .data) records ∧
      (afterCalls calls s).stream.written = s.stream.written ++ records.flatten ++ tail ∧
      (tail = [] ∨ ∃ d ∈ payloads calls, ∃ w, Tls13.Protected u.protect (Tls13.writeKey u.hash secret u.keyLength) (Tls13.writeIv u.hash secret 12)
        (seq + records.length) 23#8 d w ∧ tail <+: w)

/-- C96 in full. -/
def C96_statement : Prop := C96_for fun _ _ => True

/-- A connection that breaks at most once, for good: everything is taken up to some write, of which a part may go out, and nothing of the writes after
that. -/
def Breaks (writes : Nat) (outcomes : List (Option Nat)) : Prop :=
  ∃ n, (∀ i < n, outcomes.getD i none = none) ∧ ∀ i, n < i → i < writes → outcomes.getD i none = some 0

namespace ChannelProof

/-- One write, whatever the socket does with it. -/
theorem write_any {code : Nat} {u : Tls13.Suite} {s : TlsStream} {secret : Bytes} {seq : Nat} (h : WritesTo code u s secret seq) (hsec : secret.length = u.hash.out)
    (hseq : seq < 2 ^ 63) (data : Bytes) (hl : data.length ≤ 2 ^ 14) (h64 : code = 0x1303 → data.length % 64 ≠ 63) :
    ∃ w, WritesTo code u (s.tlsWrite data).2 secret (seq + 1) ∧ w.length = data.length + 22 ∧
      Tls13.Protected u.protect (Tls13.writeKey u.hash secret u.keyLength) (Tls13.writeIv u.hash secret 12) seq 23#8 data w ∧
      (s.tlsWrite data).2.stream.failures = s.stream.failures.tail ∧
      (s.tlsWrite data).1 = (match s.stream.failures with | some _ :: _ => .err .brokenPipe | _ => .ok ()) ∧
      (s.tlsWrite data).2.stream.written = s.stream.written ++ (match s.stream.failures with | some k :: _ => w.take k | _ => w) := by
  have h0 : WritesTo code u { s with stream := { s.stream with failures := [] } } secret seq := ⟨h.suite, h.prot⟩
  obtain ⟨w, w1, w2, w3, w4, w5, w6⟩ := write_record h0 hsec rfl hseq data hl h64
  refine ⟨w, ?_⟩
  obtain ⟨hmem, p, cs, hp, hcs, hc, hk, hiv, hsq⟩ := h
  unfold TlsStream.tlsWrite at w1 w2 w4 ⊢
  simp only [hp] at w1 w2 w4 ⊢
  rcases he : p.encrypt (Record.new .applicationData data) with ⟨r, p'⟩
  rw [he] at w1 w2 w4
  rcases r with rec | e | _
  · simp only [] at w1 w2 w4 ⊢
    have hw : ({ s.stream with failures := [] } : Socket).writeAll rec = (true, { s.stream with failures := [], written := s.stream.written ++ rec }) :=
      writeAll_ok _ _ rfl
    rw [hw] at w1 w2 w4
    simp only [List.append_cancel_left_eq] at w4
    subst w4
    have hne : rec ≠ [] := by intro e; rw [e] at w5; simp at w5
    obtain ⟨_, hprot⟩ := w2
    unfold Socket.writeAll
    rw [if_neg hne]
    rcases hfs : s.stream.failures with _ | ⟨_ | k, fs⟩
    · exact ⟨⟨hmem, hprot⟩, w5, w6, by simp [hfs], rfl, rfl⟩
    · exact ⟨⟨hmem, hprot⟩, w5, w6, by simp, rfl, rfl⟩
    · exact ⟨⟨hmem, hprot⟩, w5, w6, by simp, rfl, rfl⟩
  · simp at w1
  · simp at w1

end ChannelProof

/-- C96, for every history of outcomes: each write uses up one sequence number, whether it goes out or not; the socket gets one record per write, in full or
cut; a write reports success exactly if its record went out in full. -/
theorem C96_wire (code : Nat) (u : Tls13.Suite) (secret : Bytes) (hsec : secret.length = u.hash.out) (calls : List Call) :
    ∀ (s : TlsStream) (seq : Nat), WritesTo code u s secret seq → seq + (payloads calls).length < 2 ^ 63 → Short code (payloads calls) →
    ∃ records, Tls13.Sends u secret seq ((payloads calls).map .data) records ∧
      (afterCalls calls s).stream.written = s.stream.written ++ (Tls13.went s.stream.failures records).flatten ∧
      writeResults calls s = (List.range (payloads calls).length).map (fun i => if (s.stream.failures.getD i none).isSome then .err .brokenPipe else .ok ()) ∧
      WritesTo code u (afterCalls calls s) secret (seq + (payloads calls).length) := by
  induction calls with
  | nil => exact fun s seq h _ _ => ⟨[], rfl, by simp [afterCalls, Tls13.went], rfl, h⟩
  | cons c calls ih =>
    intro s seq h hq hs
    cases c with
    | read n =>
      obtain ⟨hmem, p, cs, hp, hcs, hc, hk, hiv, hsq⟩ := h
      obtain ⟨r1, r2, q, r3, r4, r5⟩ := ChannelProof.read_write s p hp n
      have := ih (s.tlsRead n).2 seq ⟨hmem, q, cs, r3, hcs, by rw [r5]; exact hc, by rw [r4]; exact hk, by rw [r4]; exact hiv, by rw [r4]; exact hsq⟩ hq hs
      rw [r1, r2] at this
      exact this
    | write data =>
      have e : payloads (.write data :: calls) = data :: payloads calls := rfl
      rw [e, List.length_cons] at hq
      rw [e] at hs
      obtain ⟨w, w1, w2, w3, w4, w5, w6⟩ := ChannelProof.write_any h hsec (by omega) data (hs.size _ (by simp)) fun hc => hs.chacha hc _ (by simp)
      obtain ⟨records, i1, i2, i3, i4⟩ := ih _ (seq + 1) w1 (by omega) ⟨fun d hd => hs.size d (by simp [hd]), fun hc d hd => hs.chacha hc d (by simp [hd])⟩
      rw [e]
      refine ⟨w :: records, ⟨w, records, rfl, w3, i1⟩, ?_, ?_, ?_⟩
      · show (afterCalls calls (s.tlsWrite data).2).stream.written = _
        rw [i2, w6, w4]
        rcases s.stream.failures with _ | ⟨_ | k, fs⟩ <;> simp [Tls13.went]
      · show (s.tlsWrite data).1 :: writeResults calls (s.tlsWrite data).2 = _
        rw [i3, w5, w4, List.length_cons, List.range_succ_eq_map, List.map_cons, List.map_map]
        congr 1
        · rcases s.stream.failures with _ | ⟨_ | k, fs⟩ <;> rfl
        · refine List.map_congr_left fun i _ => ?_
          rcases s.stream.failures with _ | ⟨f, fs⟩ <;> rfl
      · rw [List.length_cons, show seq + ((payloads calls).length + 1) = seq + 1 + (payloads calls).length by omega]
        exact i4

namespace ChannelProof

/-- On a connection that takes nothing any more, nothing goes out and nothing is reported as written. -/
theorem dead (code : Nat) (u : Tls13.Suite) (secret : Bytes) (hsec : secret.length = u.hash.out) (calls : List Call) :
    ∀ (s : TlsStream) (seq : Nat), WritesTo code u s secret seq → seq + (payloads calls).length < 2 ^ 63 → Short code (payloads calls) →
    (∀ i < (payloads calls).length, s.stream.failures.getD i none = some 0) →
    reported calls s = [] ∧ (afterCalls calls s).stream.written = s.stream.written := by
  induction calls with
  | nil => exact fun s seq h _ _ _ => ⟨rfl, rfl⟩
  | cons c calls ih =>
    intro s seq h hq hs hd
    cases c with
    | read n =>
      obtain ⟨hmem, p, cs, hp, hcs, hc, hk, hiv, hsq⟩ := h
      obtain ⟨r1, r2, q, r3, r4, r5⟩ := ChannelProof.read_write s p hp n
      have := ih (s.tlsRead n).2 seq ⟨hmem, q, cs, r3, hcs, by rw [r5]; exact hc, by rw [r4]; exact hk, by rw [r4]; exact hiv, by rw [r4]; exact hsq⟩ hq hs
        (by rw [r2]; exact hd)
      rw [r1] at this
      exact this
    | write data =>
      have e : payloads (.write data :: calls) = data :: payloads calls := rfl
      rw [e, List.length_cons] at hq hd
      rw [e] at hs
      obtain ⟨w, w1, w2, w3, w4, w5, w6⟩ := ChannelProof.write_any h hsec (by omega) data (hs.size _ (by simp)) fun hc => hs.chacha hc _ (by simp)
      have h0 := hd 0 (by omega)
      rcases hfs : s.stream.failures with _ | ⟨f, fs⟩
      · rw [hfs] at h0; cases h0
      rw [hfs] at h0 w4 w5 w6 hd
      obtain rfl : f = some 0 := h0
      obtain ⟨i1, i2⟩ := ih _ (seq + 1) w1 (by omega) ⟨fun d hd => hs.size d (by simp [hd]), fun hc d hd => hs.chacha hc d (by simp [hd])⟩
        (fun i hi => by rw [w4]; exact hd (i + 1) (by omega))
      refine ⟨?_, ?_⟩
      · rw [reported, w5]
        exact i1
      · show (afterCalls calls (s.tlsWrite data).2).stream.written = _
        rw [i2, w6]
        simp

end ChannelProof

/-- C96 for connections that break at most once, for good. Missing: connections that fail to take a write and take a later one, such as sockets with a
write timeout: the library goes on after the gap (`C96_false`). -/
theorem C96_breaks_partial : C96_for Breaks := by
  intro code u s secret seq calls h hsec hq hs hb
  obtain ⟨n, hn1, hn2⟩ := hb
  induction calls generalizing s seq n with
  | nil => exact ⟨[], [], rfl, by simp [afterCalls], .inl rfl⟩
  | cons c calls ih =>
    cases c with
    | read n =>
      obtain ⟨hmem, p, cs, hp, hcs, hc, hk, hiv, hsq⟩ := h
      obtain ⟨r1, r2, q, r3, r4, r5⟩ := ChannelProof.read_write s p hp n
      have := ih (s.tlsRead n).2 seq ⟨hmem, q, cs, r3, hcs, by rw [r5]; exact hc, by rw [r4]; exact hk, by rw [r4]; exact hiv, by rw [r4]; exact hsq⟩ hq hs
        _ (by rw [r2]; exact hn1) (by rw [r2]; exact hn2)
      rw [r1] at this
      exact this
    | write data =>
      have e : payloads (.write data :: calls) = data :: payloads calls := rfl
      rw [e, List.length_cons] at hq hn2
      rw [e] at hs
      obtain ⟨w, w1, w2, w3, w4, w5, w6⟩ := ChannelProof.write_any h hsec (by omega) data (hs.size _ (by simp)) fun hc => hs.chacha hc _ (by simp)
      have hs' : Short code (payloads calls) := ⟨fun d hd => hs.size d (by simp [hd]), fun hc d hd => hs.chacha hc d (by simp [hd])⟩
      have hg : ∀ i, s.stream.failures.getD (i + 1) none = s.stream.failures.tail.getD i none := by
        intro i
        rcases s.stream.failures with _ | ⟨f, fs⟩ <;> rfl
      have ewr : (afterCalls (.write data :: calls) s).stream.written = (afterCalls calls (s.tlsWrite data).2).stream.written := rfl
      rw [e, ewr]
      cases n with
      | zero =>
        obtain ⟨d1, d2⟩ := ChannelProof.dead code u secret hsec calls _ (seq + 1) w1 (by omega) hs'
          (fun i hi => by rw [w4, ← hg]; exact hn2 (i + 1) (by omega) (by omega))
        rw [d2, w6]
        rcases hfs : s.stream.failures with _ | ⟨_ | k, fs⟩ <;> rw [hfs] at w5 <;> simp only [] at w5
        · refine ⟨[w], [], ?_, by simp, .inl rfl⟩
          rw [reported, w5, d1]
          exact ⟨w, [], rfl, w3, rfl⟩
        · refine ⟨[w], [], ?_, by simp, .inl rfl⟩
          rw [reported, w5, d1]
          exact ⟨w, [], rfl, w3, rfl⟩
        · refine ⟨[], w.take k, ?_, by simp, .inr ⟨data, by simp, w, w3, List.take_prefix ..⟩⟩
          rw [reported, w5, d1]
          rfl
      | succ n =>
        have h0 : ∀ k fs, s.stream.failures ≠ some k :: fs := by
          intro k fs hf
          have := hn1 0 (by omega)
          rw [hf] at this
          cases this
        obtain ⟨records, tail, t1, t2, t3⟩ := ih _ (seq + 1) w1 (by omega) hs' n (fun i hi => by rw [w4, ← hg]; exact hn1 (i + 1) (by omega))
          (fun i hi hi' => by rw [w4, ← hg]; exact hn2 (i + 1) (by omega) (by omega))
        have w5' : (s.tlsWrite data).1 = .ok () := by
          rw [w5]
          split
          · next hf => exact absurd hf (h0 _ _)
          · rfl
        have w6' : (s.tlsWrite data).2.stream.written = s.stream.written ++ w := by
          rw [w6]
          split
          · next hf => exact absurd hf (h0 _ _)
          · rfl
        refine ⟨w :: records, tail, ?_, ?_, ?_⟩
        · rw [reported, if_pos w5']
          exact ⟨w, records, rfl, w3, t1⟩
        · rw [t2, w6']
          simp
        · rcases t3 with t3 | ⟨d, hd, w', g1, g2⟩
          · exact .inl t3
          · refine .inr ⟨d, by simp [hd], w', ?_, g2⟩
            rw [List.length_cons, show seq + (records.length + 1) = seq + 1 + records.length by omega]
            exact g1

/-- The hypotheses are met: three writes, of which the second breaks after 7 bytes. -/
example (code : Nat) (u : Tls13.Suite) (hu : (code, u) ∈ Tls13.suites) (secret : Bytes) :
    ∃ s, WritesTo code u s secret 0 ∧ Breaks 3 s.stream.failures ∧ s.stream.failures = [none, some 7, some 0] ∧ Short code [ascii "a", ascii "b", ascii "c"] := by
  obtain ⟨s, h1, h2⟩ := ChannelProof.writes_exist hu secret []
  refine ⟨{ s with stream := { s.stream with failures := [none, some 7, some 0] } }, ⟨h1.suite, h1.prot⟩, ⟨1, ?_, ?_⟩, rfl, ⟨by decide, fun _ => by decide⟩⟩
  · intro i hi
    obtain rfl : i = 0 := by omega
    rfl
  · intro i hi hi'
    obtain rfl : i = 2 := by omega
    rfl

/-- C96 does not hold: a write that failed after one byte is not remembered; the next one is reported as written although it follows a single byte of the
record before. -/
theorem C96_false : ¬ C96_statement := by
  intro H
  obtain ⟨u, hmem, hout⟩ : ∃ u, (0x1301, u) ∈ Tls13.suites ∧ u.hash.out = 32 := ⟨_, List.mem_cons_self .., rfl⟩
  obtain ⟨s0, h1, h2⟩ := ChannelProof.writes_exist hmem (zeros 32) []
  have hsec : (zeros 32).length = u.hash.out := by rw [hout]; simp [zeros]
  have hs : WritesTo 0x1301 u { s0 with stream := ⟨[], [some 1], []⟩ } (zeros 32) 0 := ⟨h1.suite, h1.prot⟩
  generalize hse : { s0 with stream := ⟨[], [some 1], []⟩ } = s at hs
  have hf : s.stream = ⟨[], [some 1], []⟩ := by rw [← hse]
  have hsh : Short 0x1301 [ascii "a", ascii "b"] := ⟨by decide, fun _ => by decide⟩
  obtain ⟨w, w1, w2, w3, w4, w5, w6⟩ := ChannelProof.write_any hs hsec (by omega) (ascii "a") (hsh.size _ (by simp)) fun hc => hsh.chacha hc _ (by simp)
  obtain ⟨v, v1, v2, v3, v4, v5, v6⟩ := ChannelProof.write_any w1 hsec (by omega) (ascii "b") (hsh.size _ (by simp)) fun hc => hsh.chacha hc _ (by simp)
  rw [hf] at w4 w5 w6
  simp only [List.tail_cons, List.nil_append] at w4 w5 w6
  rw [w4] at v4 v5 v6
  simp only [] at v4 v5 v6
  obtain ⟨records, tail, r1, r2, r3⟩ := H 0x1301 u s (zeros 32) 0 [.write (ascii "a"), .write (ascii "b")] hs hsec (by simp [payloads]) hsh trivial
  have hrep : reported [.write (ascii "a"), .write (ascii "b")] s = [ascii "b"] := by
    simp only [reported]
    rw [w5, if_neg (by decide), v5, if_pos rfl]
  rw [hrep] at r1
  have hwr : (afterCalls [.write (ascii "a"), .write (ascii "b")] s).stream.written = w.take 1 ++ v := by
    show ((s.tlsWrite (ascii "a")).2.tlsWrite (ascii "b")).2.stream.written = _
    rw [v6, w6]
  rw [hwr, hf] at r2
  obtain ⟨x, rest, rfl, hx, hr⟩ := r1
  obtain rfl : rest = [] := hr
  have start : ∀ (n : Nat) (d y : Bytes), Tls13.Protected u.protect (Tls13.writeKey u.hash (zeros 32) u.keyLength) (Tls13.writeIv u.hash (zeros 32) 12) n 23#8 d y →
      ∃ z, y = 23#8 :: 3#8 :: z := by
    rintro n d y ⟨ct, tag, pad, _, e, _⟩
    exact ⟨_, by rw [e]; rfl⟩
  obtain ⟨w', rfl⟩ := start _ _ _ w3
  obtain ⟨v', rfl⟩ := start _ _ _ v3
  obtain ⟨x', rfl⟩ := start _ _ _ hx
  simp at r2

end ATLS
