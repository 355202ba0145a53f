import Verif.Props.Joint
import Verif.Props.OuterType
import Verif.Props.PairExample
import Verif.Props.Bounded
import Verif.Spec.LongRecord
/-
C122: records that are longer than RFC 8446 allows.
-/
namespace ATLS
open ATLS.Model ATLS.Spec ATLS.RecProof FlowProof

/-- C122 in full, for the client: it does not complete the handshake with a server one of whose records is too long. -/
def C122_statement : Prop :=
  ∀ (env : ClientEnv) (rng : List Bytes) (n : Int) (x : Params) (ch sh shRec messages : Bytes) (auth records incoming : List Bytes) (s : TlsStream),
    ConformingServer env rng n x ch sh shRec messages auth records → Tls13.Pieces 2048 [] (shRec :: records) incoming →
    (ClientConnection.connect env rng ⟨incoming, [], []⟩).1 = .ok s → ∀ w ∈ records, ¬ Tls13.TooLong w

namespace LongProof

/-- The first protected record of a flight can be padded to the longest record there is. -/
theorem pad_flight {x : Params} (hx : x.Ok) {side : Tls13.Side} {seq : Nat} {contents records : List Bytes}
    (h : Tls13.ProtectedFlight (aead x.c) (x.sess.key side) (x.sess.iv side) seq contents records) (hc : contents ≠ []) :
    ∃ records', Tls13.ProtectedFlight (aead x.c) (x.sess.key side) (x.sess.iv side) seq contents records' ∧ ∃ w ∈ records', w.length = 5 + (2 ^ 16 - 1) := by
  induction h with
  | nil => exact absurd rfl hc
  | ccs seq contents c w ws h1 _ ih =>
    obtain ⟨ws', g1, w', g2, g3⟩ := ih hc
    exact ⟨w :: ws', .ccs _ _ c _ _ h1 g1, w', by simp [g2], g3⟩
  | cons seq c cs w ws h1 h2 _ =>
    obtain ⟨_, _, n, hl, _⟩ := h1
    obtain ⟨pad, hpad⟩ : ∃ pad, c.length + pad = 2 ^ 16 - 18 := ⟨2 ^ 16 - 18 - c.length, by omega⟩
    obtain ⟨ct, tag, g1, g2, g3, _⟩ := C15_aead_round_trip x.cs x.c hx.cipher (x.sess.key side) (Tls13.nonce (x.sess.iv side) seq) (c ++ [22#8] ++ zeros pad)
      (Tls13.protectedHeader (c.length + 1 + pad)) (suiteKeys (hsKey_sizes x side 0) seq) (by simp [Tls13.protectedHeader, beBytes_length]; omega)
    refine ⟨_, .cons seq c cs (Tls13.protectedHeader (c.length + 1 + pad) ++ ct ++ tag) ws ⟨ct, tag, pad, by omega, rfl, ?_⟩ h2, _, List.mem_cons_self .., ?_⟩
    · unfold aead
      rw [g1]
    · simp only [List.length_append, g2, g3, Tls13.protectedHeader, beBytes_length, List.length_cons, List.length_nil, zeros, List.length_replicate]
      omega

end LongProof

/-- C122: the client completes the handshake with every conforming server also when it pads one of its records to 65535 bytes, the most the header can
announce. -/
theorem C122_longest (env : ClientEnv) (rng : List Bytes) (n : Int) (x : Params) (ch sh shRec messages : Bytes) (auth records : List Bytes) (hx : x.Ok)
    (hown : ∀ c, env.config.clientCert = some c → c.raw.length + 400 ≤ 2 ^ 24) (hc : ConformingServer env rng n x ch sh shRec messages auth records) :
    ∃ records' incoming s h, ConformingServer env rng n x ch sh shRec messages auth records' ∧ Tls13.Pieces 2048 [] (shRec :: records') incoming ∧
      ClientConnection.connect env rng ⟨incoming, [], []⟩ = (.ok s, h) ∧ ∃ w ∈ records', w.length = 5 + (2 ^ 16 - 1) := by
  obtain ⟨ee, requests, cm, cv, cert, contents, f1, f2, f3, f4, f5, f6, f7⟩ := hc.flight
  have hne : contents ≠ [] := by
    obtain ⟨groups, g1, g2, _⟩ := f5
    rintro rfl
    rw [eq_comm, List.map_eq_nil_iff] at g2
    rw [g2] at g1
    simp [serverMessages] at g1
  obtain ⟨records', g1, w, g2, g3⟩ := LongProof.pad_flight hx f6 hne
  have hc' : ConformingServer env rng n x ch sh shRec messages auth records' := { hc with flight := ⟨ee, requests, cm, cv, cert, contents, f1, f2, f3, f4, f5, g1, f7⟩ }
  have hshr : shRec ≠ [] := by
    obtain ⟨_, _, _, e⟩ := hc.hello
    rw [e]; simp
  obtain ⟨incoming, hp⟩ := Tls13.pieces_exist (cap := 2048) (by omega) (shRec :: records') (by
    intro hm
    rcases List.mem_cons.1 hm with hm | hm
    · exact hshr hm.symm
    · exact BoundProof.nonempty g1 hm)
  obtain ⟨s, h, _, _, e, _⟩ := C76_client_completes env rng n x ch sh shRec messages auth records' [] incoming hown hc' (by simp) (by rw [List.append_nil]; exact hp)
  exact ⟨records', incoming, s, h, hc', hp, e, w, g2, g3⟩

/-- C122 is false. -/
theorem C122_false : ¬ C122_statement := by
  intro hst
  obtain ⟨-, ⟨ca, kc, ks, q, r, rng, auth, ws, cws, R⟩⟩ := PairProof.example_runs
  have size : (Spec.X509.certificate ownTbs ownR ownS).length + 400 ≤ 2 ^ 24 := by decide +kernel
  obtain ⟨records, incoming, s, h, h1, h2, h3, w, h4, h5⟩ := C122_longest _ _ _ _ _ _ _ _ _ _ R.ok (by intro c hc; cases hc; exact size) R.server
  exact hst _ _ _ _ _ _ _ _ _ _ _ _ h1 h2 (by rw [h3]) w h4 (by unfold Tls13.TooLong; omega)

/-- C122, the part that holds: `tls_read` never returns data from a record that is too long. Missing: the handshake of the client (`C122_false`). -/
theorem C122_read_partial (code : Nat) (u : Tls13.Suite) (s s' : TlsStream) (secret : Bytes) (seq size : Nat) (data : Bytes)
    (h : ReadsFrom code u s secret seq) (hsec : secret.length = u.hash.out) (hseq : seq < 2 ^ 63) (hr : s.tlsRead size = (.ok data, s')) :
    ∃ (outer v1 v2 : Byte) (w rest : Bytes), nextRead s (w ++ rest) ∧ ¬ Tls13.TooLong w ∧ ((code = 0x1303 ∧ w.length % 64 = 21) ∨
      Tls13.ProtectedAs outer v1 v2 u.protect (Tls13.writeKey u.hash secret u.keyLength) (Tls13.writeIv u.hash secret 12) seq 23#8 data w) := by
  obtain ⟨outer, v1, v2, w, rest, h1, h2, h3, h4⟩ := C121_sealed_partial code u s s' secret seq size data h hsec hseq hr
  refine ⟨outer, v1, v2, w, rest, h1, ?_, h4⟩
  obtain ⟨c, cs, _, e⟩ := h1
  have := congrArg List.length e
  rw [List.length_append, List.length_take] at this
  unfold Tls13.TooLong
  omega

/-- The hypotheses of C122 are met: the library's own client and server, whose flight is padded. -/
example : ∃ env rng n x ch sh shRec messages auth records, ConformingServer env rng n x ch sh shRec messages auth records ∧ x.Ok ∧
    ∀ c : Certificate, env.config.clientCert = some c → c.raw.length + 400 ≤ 2 ^ 24 := by
  obtain ⟨-, ⟨ca, kc, ks, q, r, rng, auth, ws, cws, R⟩⟩ := PairProof.example_runs
  have size : (Spec.X509.certificate ownTbs ownR ownS).length + 400 ≤ 2 ^ 24 := by decide +kernel
  exact ⟨_, _, _, _, _, _, _, _, _, _, R.server, R.ok, by intro c hc; cases hc; exact size⟩

end ATLS
