import Verif.Spec.Retry
import Verif.Props.Crash
import Verif.Props.ClientAlerts
import Verif.Proof.Hello
/-
C101: settling on another group with a HelloRetryRequest.
-/
namespace ATLS
open ATLS.Model ATLS.Spec ATLS.RecProof FlowProof

namespace HelloProof
open ATLS.Spec.Tls13 ATLS.WireProof

/-- What the client makes of one extension of a HelloRetryRequest. -/
def retryResult : RetryExt → Res TlsError (List ServerExtension)
  | .version => .ok [.supportedVersions true]
  | .cookie _ => .ok []
  | .group g => if (NamedGroup.new g).isSome then .panic else .err .illegalParameter

theorem retry_share (g : Nat) (h : g < 65536) : KeyShare.parse (beBytes 2 g) true = (if (NamedGroup.new g).isSome then .panic else .err .illegalParameter) := by
  unfold KeyShare.parse
  have h0 : sliceFrom (ε := TlsError) (beBytes 2 g) 0 = .ok (beBytes 2 g) := by simp [sliceFrom]
  simp only [if_true, h0, Res.ok_bind]
  rw [KeyShare.parseLoop]
  rcases hg : NamedGroup.new g with _ | k
  · have := entry_unknown g hg h []
    rw [List.append_nil] at this
    rw [this]
    rfl
  · have : KeyShareEntry.parse (beBytes 2 g) = .panic := by
      unfold KeyShareEntry.parse
      rw [toU16_be' g h, hg]
      have e : sliceFrom (ε := TlsError) (beBytes 2 g) 2 = .ok [] := by simp [sliceFrom]
      simp only [Res.okOr, Res.ok_bind, e]
      rw [show toU16 [] = 0 from rfl, if_neg (by omega)]
      unfold slice
      rw [if_neg (by simp)]
      rfl
    rw [this]
    rfl

theorem retry_step (e : RetryExt) (he : ∀ g, e = .group g → g < 65536) (hl : e.bytes.length < 65536) (fuel : Nat) (rest : Bytes) (acc : List ServerExtension) :
    fromServerHelloLoop (fuel + 1) (e.bytes ++ rest) acc = (do
      let l ← retryResult e
      fromServerHelloLoop fuel rest (acc ++ l)) := by
  cases e with
  | version => exact sext_step (.supportedVersions 0x0304) (by show (0x0304 : Nat) < 65536; omega) fuel rest acc (by simp [ServerExt.body])
  | cookie c =>
    refine sext_step (.other 44 (vec2 c)) ⟨by omega, by omega, by omega, by omega⟩ fuel rest acc ?_
    simp only [RetryExt.bytes, vec2, List.length_append, beBytes_length] at hl
    simp only [ServerExt.body, vec2, List.length_append, beBytes_length]
    omega
  | group g =>
    have hg := he g rfl
    have hsplit : (RetryExt.group g).bytes ++ rest = beBytes 2 51 ++ (beBytes 2 2 ++ (beBytes 2 g ++ rest)) := by
      simp [RetryExt.bytes, vec2]
    rw [fromServerHelloLoop, hsplit, if_neg (by rw [WireProof.beBytes2]; simp), slice_pre (beBytes 2 51) _ (by simp)]
    simp only [Res.ok_bind]
    rw [slice_mid (m := 4) (beBytes 2 51) (beBytes 2 2) _ (by simp) (by simp)]
    simp only [Res.ok_bind]
    rw [toU16_be' 51 (by omega), toU16_be' 2 (by omega)]
    have hsl : slice (ε := TlsError) (beBytes 2 51 ++ (beBytes 2 2 ++ (beBytes 2 g ++ rest))) 4 (4 + 2) = .ok (beBytes 2 g) := by
      have := slice_mid (ε := TlsError) (beBytes 2 51 ++ beBytes 2 2) (beBytes 2 g) rest (n := 4) (m := 4 + 2) (by simp) (by simp)
      simpa using this
    have h0 : ExtensionType.new 51 = some .keyShare := rfl
    simp only [h0, hsl, Res.ok_bind, retry_share g hg, retryResult]
    split_ifs <;> rfl

/-- What the client makes of the extensions of a HelloRetryRequest. -/
def retriesResult : List RetryExt → List ServerExtension → Res TlsError (List ServerExtension)
  | [], acc => .ok acc
  | e :: es, acc => do
    let l ← retryResult e
    retriesResult es (acc ++ l)

theorem retry_loop (es : List RetryExt) : ∀ (fuel : Nat) (acc : List ServerExtension), (∀ g, .group g ∈ es → g < 65536) →
    (es.map RetryExt.bytes).flatten.length < 65536 → es.length ≤ fuel →
    fromServerHelloLoop fuel (es.map RetryExt.bytes).flatten acc = retriesResult es acc := by
  induction es with
  | nil => intro fuel acc _ _ _; rcases fuel with _ | fuel <;> simp [fromServerHelloLoop, retriesResult]
  | cons e es ih =>
    intro fuel acc hv hl hf
    rcases fuel with _ | fuel
    · simp at hf
    simp only [List.map_cons, List.flatten_cons, List.length_append] at hl ⊢
    rw [retry_step e (fun g hg => hv g (by simp [hg])) (by omega) fuel _ acc, retriesResult]
    rcases retryResult e with l | _ | _
    · exact ih fuel _ (fun x hx => hv x (by simp [hx])) (by omega) (by simpa using hf)
    · rfl
    · rfl

theorem retry_parse (r : RetryRequest) (hg : ∀ g, .group g ∈ r.exts → g < 65536) (hl : r.extBytes.length < 65536) :
    ServerExtension.fromServerHello r.extBytes = retriesResult r.exts [] := by
  unfold ServerExtension.fromServerHello RetryRequest.extBytes
  refine retry_loop r.exts _ [] hg hl ?_
  clear hg hl
  induction r.exts with
  | nil => simp
  | cons e es ih =>
    have : 1 ≤ e.bytes.length := by cases e <;> simp [RetryExt.bytes, vec2]; omega
    simp only [List.map_cons, List.flatten_cons, List.length_append, List.length_cons]; omega

theorem retries_known : ∀ (es : List RetryExt) (acc : List ServerExtension), (∀ g, .group g ∈ es → (NamedGroup.new g).isSome = true) → (∃ g, .group g ∈ es) →
    retriesResult es acc = .panic
  | [], _, _, ⟨g, hg⟩ => by cases hg
  | e :: es, acc, hk, ⟨g, hg⟩ => by
    rw [retriesResult]
    cases e with
    | group g' => simp only [retryResult, hk g' (by simp), if_true]; rfl
    | version => exact retries_known es _ (fun x hx => hk x (by simp [hx])) ⟨g, by simpa using hg⟩
    | cookie c => exact retries_known es _ (fun x hx => hk x (by simp [hx])) ⟨g, by simpa using hg⟩

theorem retries_unknown : ∀ (es : List RetryExt) (acc : List ServerExtension), (∀ g, .group g ∈ es → NamedGroup.new g = none) → (∃ g, .group g ∈ es) →
    retriesResult es acc = .err .illegalParameter
  | [], _, _, ⟨g, hg⟩ => by cases hg
  | e :: es, acc, hk, ⟨g, hg⟩ => by
    rw [retriesResult]
    cases e with
    | group g' => simp only [retryResult, hk g' (by simp)]; rfl
    | version => exact retries_unknown es _ (fun x hx => hk x (by simp [hx])) ⟨g, by simpa using hg⟩
    | cookie c => exact retries_unknown es _ (fun x hx => hk x (by simp [hx])) ⟨g, by simpa using hg⟩

theorem retries_none : ∀ (es : List RetryExt) (acc : List ServerExtension), (∀ g, .group g ∉ es) → (∀ x ∈ acc, x = .supportedVersions true) →
    (.version ∈ es ∨ acc ≠ []) → ∃ l, retriesResult es acc = .ok l ∧ l ≠ [] ∧ ∀ x ∈ l, x = .supportedVersions true
  | [], acc, _, ha, hn => ⟨acc, rfl, by simpa using hn, ha⟩
  | e :: es, acc, hk, ha, hn => by
    rw [retriesResult]
    cases e with
    | group g' => exact absurd (by simp) (hk g')
    | version =>
      refine retries_none es _ (fun g hg => hk g (by simp [hg])) ?_ (.inr (by simp))
      intro x hx
      simp only [List.mem_append, List.mem_singleton] at hx
      rcases hx with hx | hx
      · exact ha x hx
      · exact hx
    | cookie c =>
      refine retries_none es _ (fun g hg => hk g (by simp [hg])) (by simpa using ha) ?_
      rcases hn with hn | hn
      · exact .inl (by simpa using hn)
      · exact .inr (by simpa using hn)

/-- What the client makes of a HelloRetryRequest. -/
theorem retry_fromRaw (r : RetryRequest) (sid : Bytes) (hs : sid.length = 32) (hv : r.Valid sid [0x1302, 0x1301, 0x1303]) :
    ((∃ g, .group g ∈ r.exts ∧ (NamedGroup.new g).isSome) → ServerHello.fromRaw r.bytes = .panic) ∧
    ((∃ g, .group g ∈ r.exts ∧ NamedGroup.new g = none) → ServerHello.fromRaw r.bytes = .err .illegalParameter) ∧
    ((∀ g, .group g ∉ r.exts) → ∃ sh t, ServerHello.fromRaw r.bytes = .ok sh ∧ sh.cipherSuite.getTshash = .ok t ∧ sh.getPublicKeyShare = none) := by
  obtain ⟨cs, t, hcs, ht⟩ : ∃ cs t, CipherSuite.new r.suite = .ok cs ∧ cs.getTshash = .ok t := by
    have := hv.suite
    simp only [List.mem_cons, List.not_mem_nil, or_false] at this
    rcases this with h | h | h <;> rw [h] <;> exact ⟨_, _, rfl, rfl⟩
  have hraw := server_fromRaw_raw retryRandom r.sessionId r.suite r.extBytes (by simp [retryRandom]) (.inr (by rw [hv.sessionId, hs])) (by
    have := hv.suite
    simp only [List.mem_cons, List.not_mem_nil, or_false] at this
    omega) hv.len
  rw [hcs, retry_parse r hv.groups hv.len] at hraw
  simp only [Res.ok_bind] at hraw
  unfold RetryRequest.bytes
  rw [hraw]
  refine ⟨?_, ?_, ?_⟩
  · rintro ⟨g, hg, hk⟩
    rw [retries_known r.exts [] (fun g' hg' => by rw [hv.one g' g hg' hg]; exact hk) ⟨g, hg⟩]
    rfl
  · rintro ⟨g, hg, hk⟩
    rw [retries_unknown r.exts [] (fun g' hg' => by rw [hv.one g' g hg' hg]; exact hk) ⟨g, hg⟩]
    rfl
  · intro hno
    obtain ⟨l, hl, hne, hall⟩ := retries_none r.exts [] hno (by simp) (.inl hv.version)
    rw [hl]
    have hsup : ServerHello.tls13Supported l = true := by
      cases l with
      | nil => exact absurd rfl hne
      | cons x l =>
        have := hall x (by simp)
        subst this
        rfl
    simp only [Res.ok_bind, hsup, if_true]
    refine ⟨_, t, rfl, ht, ?_⟩
    unfold ServerHello.getPublicKeyShare
    rw [List.findSome?_eq_none_iff]
    intro x hx
    rw [hall x hx]

end HelloProof

namespace ClientProof
open ClientHandshake

/-- The client reads one record in the place of the ServerHello that makes its handling stop. -/
theorem first_record {env : ClientEnv} {rng : List Bytes} {n : Int} {ch c w : Bytes} (ho : Offered env rng n ch) (hw : Tls13.IsRecord 22#8 c w) (hl : w.length ≤ 2048)
    (rest : List Bytes) {res : Res TlsError Unit} (hne : res ≠ .ok ())
    (hres : ∀ (record : Record) (k : ClientHandshake), record.fraqment = c → k.clientHelloBytes = some ch → handleServerHello env record k = (res, k)) :
    ∃ (g : Rng) (h : ClientHandshake), ((Rng.urandom rng).between 1 32 : Res TlsError (Int × Rng)) = .ok (n, g) ∧
      doHandshake env (withReads (w :: rest) (first n g)) = (res, h) ∧
      h.stream.stream.written = Tls13.plainRecord 22#8 ch ∧ h.stream.protection = none ∧ h.stream.stream.failures = [] := by
  obtain ⟨g, rng', random, hb, hsend⟩ := hello_of ho
  obtain ⟨k, hk⟩ : ∃ k : ClientHandshake, k = { first n g with
        rng := rng', clientHelloRandom := some random, clientHelloBytes := some ch
        stream := { TlsStream.new ⟨[], [], []⟩ with stream := ⟨[], [], Tls13.plainRecord 22#8 ch⟩ } } := ⟨_, rfl⟩
  rw [← hk] at hsend
  have hwhole : ∀ x ∈ [w], Tls13.WholeRecord x := by
    intro x hx
    rw [List.mem_singleton.1 hx]
    exact ⟨22#8, c, by simp, hw⟩
  have hrun := run_reads env hsend (w :: rest)
  obtain ⟨k1, hk1⟩ : ∃ k1 : ClientHandshake, k1 = withReads (w :: rest) k := ⟨_, rfl⟩
  rw [← hk1] at hrun
  have hstep := read_step env (g := [w]) (rest := rest) (((w :: rest).map List.length).sum + (w :: rest).length + 1) k1 hwhole (by simp) (by simpa using hl)
    (by rw [hk1]; simp [withReads]) (by rw [hk1, hk]; simp [withReads, first])
  rw [hstep] at hrun
  obtain ⟨v1, v2, hc, hwe⟩ := hw
  have hraw := RecProof.fromRaw_header .handshake v1 v2 c [] hc
  rw [List.append_nil] at hraw
  obtain ⟨k2, hk2⟩ : ∃ k2 : ClientHandshake, k2 = { k1 with stream := { k1.stream with stream := { k1.stream.stream with incoming := rest } } } := ⟨_, rfl⟩
  rw [← hk2] at hrun
  have hfeed : feed env [w] k2 = (res, k2) := by
    have h1 : ∃ (record : Record) (m : Nat), Record.fromRaw w = (.ok (m, record) : Res TlsError _) ∧ record.fraqment = c ∧ record.contentType = .handshake := by
      rw [hwe, RecProof.beBytes2]
      exact ⟨_, _, hraw, rfl, rfl⟩
    obtain ⟨record, m, hr, hf, hty⟩ := h1
    unfold feed
    rw [Step.bind_lift_ok hr]
    have hh : handleRecord env record k2 = (res, k2) := by
      have hst : k2.state = .serverHello := by rw [hk2, hk1, hk]; rfl
      unfold handleRecord
      rw [Step.bind_get, hty]
      simp only [hst]
      rw [if_neg (by simp)]
      exact hres record k2 hf (by rw [hk2, hk1, hk]; rfl)
    cases res with
    | ok u => exact absurd rfl hne
    | err e => exact Step.bind_of_err hh
    | panic => exact Step.bind_of_panic hh
  refine ⟨g, k2, hb, ?_, ?_, ?_, ?_⟩
  · rw [hrun]
    cases res with
    | ok u => exact absurd rfl hne
    | err e => exact Step.bind_of_err hfeed
    | panic => exact Step.bind_of_panic hfeed
  · rw [hk2, hk1, hk]; rfl
  · rw [hk2, hk1, hk]; rfl
  · rw [hk2, hk1, hk]; rfl

/-- `connect` when its first record makes the client crash. -/
theorem first_panic {env : ClientEnv} {rng : List Bytes} {n : Int} {ch c w : Bytes} (ho : Offered env rng n ch) (hw : Tls13.IsRecord 22#8 c w) (hl : w.length ≤ 2048)
    (rest : List Bytes) (hres : ∀ (record : Record) (k : ClientHandshake), record.fraqment = c → k.clientHelloBytes = some ch → handleServerHello env record k = (.panic, k)) :
    ∃ h, ClientConnection.connect env rng ⟨w :: rest, [], []⟩ = (.panic, some h) ∧ h.stream.stream.written = Tls13.plainRecord 22#8 ch := by
  obtain ⟨g, h, hb, hd, hwr, _, _⟩ := first_record ho hw hl rest (by simp) hres
  refine ⟨h, ?_, hwr⟩
  rw [connect_eq env hb]
  have : conclude env (withReads (w :: rest) (first n g)) = (.panic, h) := by
    unfold conclude doHandshakeWithError
    rw [hd]
  rw [this]

/-- `connect` when its first record makes the client give up. -/
theorem first_error {env : ClientEnv} {rng : List Bytes} {n : Int} {ch c w : Bytes} (ho : Offered env rng n ch) (hw : Tls13.IsRecord 22#8 c w) (hl : w.length ≤ 2048)
    (rest : List Bytes) {e : TlsError} (he : ¬ NotAnswered e)
    (hres : ∀ (record : Record) (k : ClientHandshake), record.fraqment = c → k.clientHelloBytes = some ch → handleServerHello env record k = (.err e, k)) :
    ∃ h, ClientConnection.connect env rng ⟨w :: rest, [], []⟩ = (.err e, some h) ∧
      h.stream.stream.written = Tls13.plainRecord 22#8 ch ++ Tls13.plainRecord 21#8 (alertContent e) := by
  obtain ⟨g, h, hb, hd, hwr, hp, hf⟩ := first_record ho hw hl rest (by simp) hres
  have hlt : e.discr < TlsError.notOfficial.discr := by
    by_contra hn
    exact he ((AlertProof.notAnswered_iff e).2 hn)
  refine ⟨{ h with stream := { h.stream with stream := ⟨h.stream.stream.incoming, [], h.stream.stream.written ++ Tls13.plainRecord 21#8 (alertContent e)⟩ } }, ?_, ?_⟩
  · rw [connect_eq env hb]
    have : conclude env (withReads (w :: rest) (first n g)) = (.err e, { h with stream := { h.stream with stream := ⟨h.stream.stream.incoming, [], h.stream.stream.written ++ Tls13.plainRecord 21#8 (alertContent e)⟩ } }) := by
      unfold conclude doHandshakeWithError
      rw [hd]
      simp only []
      rw [if_pos hlt]
      have hwa : h.stream.writeAlert e = (.ok (), { h.stream with stream := ⟨h.stream.stream.incoming, [], h.stream.stream.written ++ Tls13.plainRecord 21#8 (alertContent e)⟩ }) := by
        unfold TlsStream.writeAlert TlsStream.protectRecord
        rw [hp]
        simp only [Socket.writeAll, hf, ServerProof.new_bytes, alertContent]
        rw [if_neg (by simp [Tls13.plainRecord])]
        rfl
      have hon : onStream (fun s => s.writeAlert e) h = (.ok (), { h with stream := { h.stream with stream := ⟨h.stream.stream.incoming, [], h.stream.stream.written ++ Tls13.plainRecord 21#8 (alertContent e)⟩ } }) := by
        unfold onStream
        simp only [hwa]
      rw [Step.bind_of_ok hon]
      have hrep : ServerHandshake.reported e = e := by
        cases e <;> first | rfl | exact absurd (.inl ⟨_, rfl⟩) he
      rw [hrep]
      rfl
    rw [this]
  · rw [hwr]

end ClientProof

namespace ServerProof
open ServerHandshake

/-- The server reads one record in the place of the ClientHello that makes its handling stop. -/
theorem first_record (env : ServerEnv) (rng : List Bytes) {c w : Bytes} (hw : Tls13.IsRecord 22#8 c w) (hl : w.length ≤ 4096)
    (rest : List Bytes) {res : Res TlsError Unit} (hne : res ≠ .ok ())
    (hres : ∀ (record : Record) (k : ServerHandshake), record.fraqment = c → handleClientHello env record k = (res, k)) :
    ∃ k2 : ServerHandshake, doHandshake env (ServerHandshake.new env (TlsStream.new ⟨w :: rest, [], []⟩) rng) = (res, k2) ∧
      k2.stream = TlsStream.new ⟨rest, [], []⟩ := by
  obtain ⟨k1, hk1⟩ : ∃ k1 : ServerHandshake, k1 = ServerHandshake.new env (TlsStream.new ⟨w :: rest, [], []⟩) rng := ⟨_, rfl⟩
  have hwhole : ∀ x ∈ [w], Tls13.WholeRecord x := by
    intro x hx
    rw [List.mem_singleton.1 hx]
    exact ⟨22#8, c, by simp, hw⟩
  have hrun : doHandshake env k1 = readLoop env (((w :: rest).map List.length).sum + (w :: rest).length + 1 + 1) k1 := by
    rw [hk1]; rfl
  have hstep := read_step env (g := [w]) (rest := rest) (((w :: rest).map List.length).sum + (w :: rest).length + 1) k1 hwhole (by simp) (by simpa using hl)
    (by rw [hk1]; simp [ServerHandshake.new, TlsStream.new]) (by rw [hk1]; simp [ServerHandshake.new])
  rw [hstep] at hrun
  obtain ⟨v1, v2, hc, hwe⟩ := hw
  have hraw := RecProof.fromRaw_header .handshake v1 v2 c [] hc
  rw [List.append_nil] at hraw
  obtain ⟨k2, hk2⟩ : ∃ k2 : ServerHandshake, k2 = { k1 with stream := { k1.stream with stream := { k1.stream.stream with incoming := rest } } } := ⟨_, rfl⟩
  rw [← hk2] at hrun
  have hfeed : feed env [w] k2 = (res, k2) := by
    have h1 : ∃ (record : Record) (m : Nat), Record.fromRaw w = (.ok (m, record) : Res TlsError _) ∧ record.fraqment = c ∧ record.contentType = .handshake := by
      rw [hwe, RecProof.beBytes2]
      exact ⟨_, _, hraw, rfl, rfl⟩
    obtain ⟨record, m, hr, hf, hty⟩ := h1
    unfold feed
    rw [Step.bind_lift_ok hr]
    have hh : handleRecord env record k2 = (res, k2) := by
      have hst : k2.state = .clientHello := by rw [hk2, hk1]; rfl
      unfold handleRecord
      rw [Step.bind_get, hty]
      simp only [hst]
      rw [if_neg (by simp)]
      exact hres record k2 hf
    cases res with
    | ok u => exact absurd rfl hne
    | err e => exact Step.bind_of_err hh
    | panic => exact Step.bind_of_panic hh
  have hd : doHandshake env k1 = (res, k2) := by
    rw [hrun]
    cases res with
    | ok u => exact absurd rfl hne
    | err e => exact Step.bind_of_err hfeed
    | panic => exact Step.bind_of_panic hfeed
  exact ⟨k2, hk1 ▸ hd, by rw [hk2, hk1]; rfl⟩

/-- `accept` when its first record makes the server crash. -/
theorem first_panic (env : ServerEnv) (rng : List Bytes) {c w : Bytes} (hw : Tls13.IsRecord 22#8 c w) (hl : w.length ≤ 4096)
    (rest : List Bytes) (hres : ∀ (record : Record) (k : ServerHandshake), record.fraqment = c → handleClientHello env record k = (.panic, k)) :
    ∃ h, ServerConnection.accept env rng ⟨w :: rest, [], []⟩ = (.panic, h) ∧ h.stream.stream.written = [] := by
  obtain ⟨k2, hd, hk2⟩ := first_record env rng hw hl rest (by simp) hres
  refine ⟨k2, ?_, by rw [hk2]; rfl⟩
  unfold ServerConnection.accept doHandshakeWithError
  rw [hd]

/-- `accept` when its first record makes the server give up. -/
theorem first_error (env : ServerEnv) (rng : List Bytes) {c w : Bytes} (hw : Tls13.IsRecord 22#8 c w) (hl : w.length ≤ 4096)
    (rest : List Bytes) {e : TlsError} (he : ¬ NotAnswered e)
    (hres : ∀ (record : Record) (k : ServerHandshake), record.fraqment = c → handleClientHello env record k = (.err e, k)) :
    ∃ h, ServerConnection.accept env rng ⟨w :: rest, [], []⟩ = (.err e, h) ∧ h.stream.stream.written = Tls13.plainRecord 21#8 (alertContent e) := by
  obtain ⟨k2, hd, hk2⟩ := first_record env rng hw hl rest (by simp) hres
  have hlt : e.discr < TlsError.notOfficial.discr := by
    by_contra hn
    exact he ((AlertProof.notAnswered_iff e).2 hn)
  have hwa : k2.stream.writeAlert e = (.ok (), { k2.stream with stream := ⟨rest, [], Tls13.plainRecord 21#8 (alertContent e)⟩ }) := by
    unfold TlsStream.writeAlert TlsStream.protectRecord
    rw [show k2.stream.protection = none by rw [hk2]; rfl]
    simp only [Socket.writeAll, show k2.stream.stream.failures = [] by rw [hk2]; rfl, ServerProof.new_bytes, alertContent]
    rw [if_neg (by simp [Tls13.plainRecord]), show k2.stream.stream.written = [] by rw [hk2]; rfl,
      show k2.stream.stream.incoming = rest by rw [hk2]; rfl]
    rfl
  have hon : onStream (fun s => s.writeAlert e) k2 = (.ok (), { k2 with stream := { k2.stream with stream := ⟨rest, [], Tls13.plainRecord 21#8 (alertContent e)⟩ } }) := by
    unfold onStream
    simp only [hwa]
  refine ⟨{ k2 with stream := { k2.stream with stream := ⟨rest, [], Tls13.plainRecord 21#8 (alertContent e)⟩ } }, ?_, rfl⟩
  unfold ServerConnection.accept doHandshakeWithError
  rw [hd]
  simp only []
  rw [if_pos hlt, Step.bind_of_ok hon]
  have hrep : ServerHandshake.reported e = e := by
    cases e <;> first | rfl | exact absurd (.inl ⟨_, rfl⟩) he
  rw [hrep]
  rfl

end ServerProof

/-! ### The property -/

/-- The bytes `written` end with another ClientHello after the ClientHello `ch`. -/
def HelloRepeated (ch written : Bytes) : Prop :=
  ∃ between body, written = Tls13.plainRecord 22#8 ch ++ between ++ Tls13.plainRecord 22#8 (Tls13.handshakeMessage 1#8 body)

/-- The bytes `written` begin with a HelloRetryRequest for the ClientHello `hello`. -/
def RetrySent (hello : Tls13.ClientHelloMsg) (written : Bytes) : Prop :=
  ∃ (r : Tls13.RetryRequest) (more : Bytes), r.Valid hello.sessionId hello.suites ∧ written = Tls13.plainRecord 22#8 r.message ++ more

/-- The client's part, for the HelloRetryRequests in `P`: a client that reads a HelloRetryRequest in answer to its ClientHello sends another
ClientHello, or ends with an error after a fatal alert. -/
def C101_client_for (P : Tls13.RetryRequest → Prop) : Prop :=
  ∀ (env : ClientEnv) (rng : List Bytes) (n : Int) (random sid share ch w : Bytes) (r : Tls13.RetryRequest),
    Offered env rng n ch → ch = Tls13.handshakeMessage 1#8 (Tls13.clientOffer random sid share env.config.serverName).bytes → sid.length = 32 →
    r.Valid sid [0x1302, 0x1301, 0x1303] → P r → Tls13.IsRecord 22#8 r.message w → w.length ≤ 2048 →
    ∃ (h : ClientHandshake), (ClientConnection.connect env rng ⟨[w], [], []⟩).2 = some h ∧
      (HelloRepeated ch h.stream.stream.written ∨
        ∃ e code, (ClientConnection.connect env rng ⟨[w], [], []⟩).1 = .err e ∧
          h.stream.stream.written = Tls13.plainRecord 22#8 ch ++ Tls13.plainRecord 21#8 [2#8, code])

/-- The server's part: when the client leaves the choice of the group to the server, with an empty list of shares (RFC 8446, 4.2.8), the server
sends a HelloRetryRequest, or ends with an error after a fatal alert. -/
def C101_server_statement : Prop :=
  ∀ (env : ServerEnv) (rng : List Bytes) (hello : Tls13.ClientHelloMsg) (w : Bytes), hello.Valid → hello.sessionId.length = 0 ∨ hello.sessionId.length = 32 →
    .keyShare [] ∈ hello.exts → Tls13.IsRecord 22#8 (Tls13.handshakeMessage 1#8 hello.bytes) w → w.length ≤ 4096 →
    RetrySent hello (ServerConnection.accept env rng ⟨[w], [], []⟩).2.stream.stream.written ∨
      ∃ e code, (ServerConnection.accept env rng ⟨[w], [], []⟩).1 = .err e ∧
        (ServerConnection.accept env rng ⟨[w], [], []⟩).2.stream.stream.written = Tls13.plainRecord 21#8 [2#8, code]

/-- C101 in full. -/
def C101_statement : Prop := C101_client_for (fun _ => True) ∧ C101_server_statement

namespace HelloProof
open ATLS.Spec.Tls13

/-- The handling of the ServerHello when the message in it cannot be parsed. -/
theorem handle_stop (env : ClientEnv) (record : Record) (k : ClientHandshake) (body : Bytes) (hb : body.length < 2 ^ 24)
    (hf : record.fraqment = handshakeMessage 2#8 body) {res : Res TlsError Unit} (hres : ∀ u, res ≠ .ok u)
    (hp : ServerHello.fromRaw body = (match res with | .ok _ => .panic | .err e => .err e | .panic => .panic)) :
    ClientHandshake.handleServerHello env record k = (res, k) := by
  have h1 : Handshake.fromRaw record.fraqment = .ok ⟨.serverHello, body, handshakeMessage 2#8 body⟩ := by
    have := FlowProof.fromRaw_message .serverHello body [] hb
    rw [List.append_nil] at this
    rw [hf]; exact this
  unfold ClientHandshake.handleServerHello
  rw [Step.bind_lift_ok h1]
  simp only [ne_eq, not_true_eq_false, if_false]
  cases res with
  | ok u => exact absurd rfl (hres u)
  | err e => exact Step.bind_of_err (s := k) (by show (ServerHello.fromRaw body, k) = _; rw [hp])
  | panic => exact Step.bind_of_panic (s := k) (by show (ServerHello.fromRaw body, k) = _; rw [hp])

theorem retry_length (r : RetryRequest) {sid : Bytes} {l : List Nat} (hs : sid.length = 32) (hv : r.Valid sid l) : r.bytes.length < 2 ^ 24 := by
  have := hv.len
  have h1 := hv.sessionId
  simp only [RetryRequest.bytes, vec2, retryRandom, List.length_append, beBytes_length, List.length_singleton, h1, hs]
  omega

theorem hello_length (h : ClientHelloMsg) (hv : h.Valid) : h.bytes.length < 2 ^ 24 := by
  have := hv.len.2
  have h1 := hv.sessionId
  have h2 := hv.random
  have h3 := hv.suites.2.1
  simp only [ClientHelloMsg.bytes, vec2, List.length_append, beBytes_length, List.length_cons, List.length_nil, u16s_length]
  omega

/-- The handling of a ServerHello without a share. -/
theorem handle_none (env : ClientEnv) (record : Record) (k : ClientHandshake) (body : Bytes) (hb : body.length < 2 ^ 24)
    (hf : record.fraqment = handshakeMessage 2#8 body) {ch : Bytes} (hch : k.clientHelloBytes = some ch) {sh : ServerHello} {t : HashType}
    (h1 : ServerHello.fromRaw body = .ok sh) (h2 : sh.cipherSuite.getTshash = .ok t) (h3 : sh.getPublicKeyShare = none) :
    ClientHandshake.handleServerHello env record k = (.err .handshakeFailure, k) := by
  have h0 : Handshake.fromRaw record.fraqment = .ok ⟨.serverHello, body, handshakeMessage 2#8 body⟩ := by
    have := FlowProof.fromRaw_message .serverHello body [] hb
    rw [List.append_nil] at this
    rw [hf]; exact this
  unfold ClientHandshake.handleServerHello
  rw [Step.bind_lift_ok h0]
  simp only [ne_eq, not_true_eq_false, if_false]
  rw [Step.bind_lift_ok h1, Step.bind_lift_ok h2, Step.bind_get, Step.bind_lift_ok (by rw [hch]; rfl), h3]
  rfl

/-- The handling of a ClientHello that cannot be parsed. -/
theorem handle_refused (env : ServerEnv) (record : Record) (k : ServerHandshake) (body : Bytes) (hb : body.length < 2 ^ 24)
    (hf : record.fraqment = handshakeMessage 1#8 body) {e : TlsError} (hp : ClientHello.fromRaw body = .err e) :
    ServerHandshake.handleClientHello env record k = (.err e, k) := by
  have h0 : Handshake.fromRaw record.fraqment = .ok ⟨.clientHello, body, handshakeMessage 1#8 body⟩ := by
    have := FlowProof.fromRaw_message .clientHello body [] hb
    rw [List.append_nil] at this
    rw [hf]; exact this
  unfold ServerHandshake.handleClientHello
  rw [Step.bind_lift_ok h0]
  simp only [ne_eq, not_true_eq_false, if_false]
  exact Step.bind_of_err (s := k) (by show (ClientHello.fromRaw body, k) = _; rw [hp])

theorem shares_refused : ∀ (l : List (Nat × Bytes)) (acc : List KeyShareEntry), (∃ es, sharesResult l acc = .ok es) ∨ sharesResult l acc = .err .illegalParameter
  | [], acc => .inl ⟨acc, rfl⟩
  | (c, k) :: l, acc => by
    rw [sharesResult]
    cases NamedGroup.new c with
    | none => exact .inr rfl
    | some g =>
      simp only []
      split_ifs
      · exact .inl ⟨acc, rfl⟩
      · exact shares_refused l _

theorem exts_refused : ∀ (es : List ClientExt) (acc : List ClientExtension), .keyShare [] ∈ es →
    ∃ e, (e = .illegalParameter ∨ e = .decodeError) ∧ extsResult es acc = .err e
  | [], _, h => by cases h
  | x :: es, acc, h => by
    rw [extsResult]
    rcases List.mem_cons.1 h with rfl | h'
    · exact ⟨.illegalParameter, .inl rfl, rfl⟩
    cases x with
    | serverName n =>
      simp only [extResult]
      split_ifs
      · exact exts_refused es _ h'
      · exact ⟨_, .inr rfl, rfl⟩
    | supportedVersions vs => exact exts_refused es _ h'
    | other t b => exact exts_refused es _ h'
    | keyShare l =>
      simp only [extResult]
      split_ifs
      · exact ⟨_, .inl rfl, rfl⟩
      · rcases shares_refused l [] with ⟨k, hk⟩ | hk
        · rw [hk]; exact exts_refused es _ h'
        · rw [hk]; exact ⟨_, .inl rfl, rfl⟩

end HelloProof

/-- Every client crashes on every HelloRetryRequest for a group it knows (RFC 8446 lets a server send one for secp256r1): it writes nothing after
its ClientHello. -/
theorem C101_client_crashes (env : ClientEnv) (rng : List Bytes) (n : Int) (ch sid w : Bytes) (r : Tls13.RetryRequest) (g : Nat) (ho : Offered env rng n ch)
    (hs : sid.length = 32) (hv : r.Valid sid [0x1302, 0x1301, 0x1303]) (hg : .group g ∈ r.exts) (hk : ∃ x, (g, x) ∈ Tls13.knownGroups)
    (hw : Tls13.IsRecord 22#8 r.message w) (hl : w.length ≤ 2048) (reads : List Bytes) :
    ∃ h, ClientConnection.connect env rng ⟨w :: reads, [], []⟩ = (.panic, some h) ∧ h.stream.stream.written = Tls13.plainRecord 22#8 ch := by
  have hk' : (NamedGroup.new g).isSome := by
    obtain ⟨x, hx⟩ := hk
    simp only [Tls13.knownGroups, List.mem_cons, Prod.mk.injEq, List.not_mem_nil, or_false] at hx
    rcases hx with ⟨rfl, -⟩ | ⟨rfl, -⟩ | ⟨rfl, -⟩ | ⟨rfl, -⟩ | ⟨rfl, -⟩ | ⟨rfl, -⟩ | ⟨rfl, -⟩ | ⟨rfl, -⟩ | ⟨rfl, -⟩ | ⟨rfl, -⟩ <;> rfl
  refine ClientProof.first_panic ho hw hl reads fun record k hf _ => ?_
  refine HelloProof.handle_stop env record k r.bytes (HelloProof.retry_length r hs hv) hf (by simp) ?_
  exact (HelloProof.retry_fromRaw r sid hs hv).1 ⟨g, hg, hk'⟩

/-- A HelloRetryRequest for a group the client does not know, or one that asks for a cookie only, is refused: the client sends the alert
illegal_parameter or handshake_failure after its ClientHello, and no other ClientHello. -/
theorem C101_client_refuses (env : ClientEnv) (rng : List Bytes) (n : Int) (ch sid w : Bytes) (r : Tls13.RetryRequest) (ho : Offered env rng n ch)
    (hs : sid.length = 32) (hv : r.Valid sid [0x1302, 0x1301, 0x1303]) (hw : Tls13.IsRecord 22#8 r.message w) (hl : w.length ≤ 2048) (reads : List Bytes) :
    (∀ g, .group g ∈ r.exts → (∀ x, (g, x) ∉ Tls13.knownGroups) →
      ∃ h, ClientConnection.connect env rng ⟨w :: reads, [], []⟩ = (.err .illegalParameter, some h) ∧
        h.stream.stream.written = Tls13.plainRecord 22#8 ch ++ Tls13.plainRecord 21#8 [2#8, 47#8]) ∧
    ((∀ g, .group g ∉ r.exts) →
      ∃ h, ClientConnection.connect env rng ⟨w :: reads, [], []⟩ = (.err .handshakeFailure, some h) ∧
        h.stream.stream.written = Tls13.plainRecord 22#8 ch ++ Tls13.plainRecord 21#8 [2#8, 40#8]) := by
  constructor
  · intro g hg hk
    have hk' : NamedGroup.new g = none := by
      rw [← HelloProof.group_lookup]
      simp only [Tls13.knownGroups, List.mem_cons, Prod.mk.injEq, List.not_mem_nil, or_false] at hk ⊢
      rw [List.lookup_eq_none_iff]
      intro p hp
      simp only [List.mem_cons, List.not_mem_nil, or_false] at hp
      by_contra hne
      have hpe : g = p.1 := by simpa using hne
      exact hk p.2 (by rcases hp with rfl | rfl | rfl | rfl | rfl | rfl | rfl | rfl | rfl | rfl <;> simp at hpe ⊢ <;> simp [hpe])
    refine ClientProof.first_error (e := .illegalParameter) ho hw hl reads (by simp [NotAnswered]) fun record k hf _ => ?_
    refine HelloProof.handle_stop env record k r.bytes (HelloProof.retry_length r hs hv) hf (by simp) ?_
    exact (HelloProof.retry_fromRaw r sid hs hv).2.1 ⟨g, hg, hk'⟩
  · intro hno
    refine ClientProof.first_error (e := .handshakeFailure) ho hw hl reads (by simp [NotAnswered]) fun record k hf hch => ?_
    obtain ⟨sh, t, h1, h2, h3⟩ := (HelloProof.retry_fromRaw r sid hs hv).2.2 hno
    exact HelloProof.handle_none env record k r.bytes (HelloProof.retry_length r hs hv) hf hch h1 h2 h3

/-- Every server answers a ClientHello with an empty list of shares with an alert, and nothing else. -/
theorem C101_server_refuses (env : ServerEnv) (rng : List Bytes) (hello : Tls13.ClientHelloMsg) (w : Bytes) (hv : hello.Valid)
    (hs : hello.sessionId.length = 0 ∨ hello.sessionId.length = 32) (hk : .keyShare [] ∈ hello.exts)
    (hw : Tls13.IsRecord 22#8 (Tls13.handshakeMessage 1#8 hello.bytes) w) (hl : w.length ≤ 4096) (reads : List Bytes) :
    ∃ e h, (e = .illegalParameter ∨ e = .decodeError) ∧ ServerConnection.accept env rng ⟨w :: reads, [], []⟩ = (.err e, h) ∧
      h.stream.stream.written = Tls13.plainRecord 21#8 (alertContent e) := by
  obtain ⟨e, he, hp⟩ := HelloProof.exts_refused hello.exts [] hk
  obtain ⟨h, h1, h2⟩ := ServerProof.first_error env rng (e := e) hw hl reads (by rcases he with rfl | rfl <;> simp [NotAnswered]) fun record k hf => by
    refine HelloProof.handle_refused env record k hello.bytes (HelloProof.hello_length hello hv) hf ?_
    rw [HelloProof.client_fromRaw hello hv hs, hp]
    rfl
  exact ⟨e, h, he, h1, h2⟩

namespace HelloProof
open ATLS.Spec.Tls13

/-- A HelloRetryRequest for secp256r1 with a cookie. -/
def exampleRetry : RetryRequest := ⟨zeros 32, 0x1301, [.version, .cookie [1, 2, 3], .group 0x17]⟩

theorem exampleRetry_valid : exampleRetry.Valid (zeros 32) [0x1302, 0x1301, 0x1303] := by
  refine ⟨rfl, by decide, by simp [exampleRetry], ?_, ?_, ?_, by decide⟩
  · intro g hg
    simp only [exampleRetry, List.mem_cons, reduceCtorEq, RetryExt.group.injEq, List.not_mem_nil, or_false, false_or] at hg
    omega
  · intro g g' hg hg'
    simp only [exampleRetry, List.mem_cons, reduceCtorEq, RetryExt.group.injEq, List.not_mem_nil, or_false, false_or] at hg hg'
    omega
  · intro c hc
    simp only [exampleRetry, List.mem_cons, reduceCtorEq, RetryExt.cookie.injEq, List.not_mem_nil, or_false, false_or] at hc
    subst hc
    decide

/-- A ClientHello that leaves the choice of the group to the server. -/
def emptyShares : ClientHelloMsg :=
  ⟨zeros 32, zeros 32, [0x1301], [.keyShare [], .supportedVersions [0x0304], .other 10 [0x00#8, 0x02#8, 0x00#8, 0x1d#8]]⟩

theorem emptyShares_valid : emptyShares.Valid := by
  refine ⟨rfl, by decide, ⟨by decide, by decide, by decide⟩, ?_, ⟨by decide, by decide⟩⟩
  intro e he
  simp only [emptyShares, List.mem_cons, List.not_mem_nil, or_false] at he
  rcases he with rfl | rfl | rfl
  · simp [ClientExt.Valid]
  · simp [ClientExt.Valid]
  · simp [ClientExt.Valid]

end HelloProof
open HelloProof

/-- C101, proved part: the server always sends an alert; the client does when the group asked for is not one it knows or only a cookie is asked
for. Missing: for a known group the client crashes (`C101_client_crashes`, `C101_false`). -/
theorem C101_refused_partial : C101_client_for (fun r => ∀ g, .group g ∈ r.exts → ∀ x, (g, x) ∉ Tls13.knownGroups) ∧ C101_server_statement := by
  constructor
  · intro env rng n random sid share ch w r ho _ hs hv hP hw hl
    obtain ⟨h1, h2⟩ := C101_client_refuses env rng n ch sid w r ho hs hv hw hl []
    by_cases hg : ∃ g, .group g ∈ r.exts
    · obtain ⟨g, hg⟩ := hg
      obtain ⟨h, e1, e2⟩ := h1 g hg (hP g hg)
      exact ⟨h, by rw [e1], .inr ⟨_, _, by rw [e1], e2⟩⟩
    · obtain ⟨h, e1, e2⟩ := h2 fun g hgm => hg ⟨g, hgm⟩
      exact ⟨h, by rw [e1], .inr ⟨_, _, by rw [e1], e2⟩⟩
  · intro env rng hello w hv hs hk hw hl
    obtain ⟨e, h, he, e1, e2⟩ := C101_server_refuses env rng hello w hv hs hk hw hl []
    refine .inr ⟨e, e.asU8, by rw [e1], ?_⟩
    rw [e1]
    simp only []
    rw [e2]
    rcases he with rfl | rfl <;> rfl

/-- A client and a HelloRetryRequest for secp256r1 that its user meets. -/
theorem HelloProof.retry_met : ∃ ch, Offered (exampleClient none) [zeros 100, zeros 100, zeros 100] 256 ch ∧
    ch = Tls13.handshakeMessage 1#8 (Tls13.clientOffer (zeros 32) (zeros 32) (publicShare 256) (exampleClient none).config.serverName).bytes ∧
    Tls13.IsRecord 22#8 exampleRetry.message (Tls13.plainRecord 22#8 exampleRetry.message) ∧
    .group 0x17 ∈ exampleRetry.exts ∧ (Tls13.plainRecord 22#8 exampleRetry.message).length ≤ 2048 := by
  obtain ⟨ch, hch⟩ : ∃ ch, ch = Tls13.handshakeMessage 1#8 (Tls13.clientOffer (zeros 32) (zeros 32) (publicShare 256) (exampleClient none).config.serverName).bytes := ⟨_, rfl⟩
  exact ⟨ch, ⟨_, _, _, zeros 32, zeros 32, example_between.1, rfl, rfl, by simp [zeros], by simp [zeros], by norm_num, by norm_num, hch⟩, hch,
    ⟨3#8, 3#8, by decide, rfl⟩, by simp [exampleRetry], by decide⟩

/-- C101 is false: the client crashes on a HelloRetryRequest for secp256r1, one of the groups it offers. -/
theorem C101_false : ¬ C101_statement := by
  rintro ⟨h, -⟩
  obtain ⟨ch, ho, hch, hw, hg, hl⟩ := retry_met
  obtain ⟨k, h1, h2⟩ := h _ _ 256 _ _ _ ch _ exampleRetry ho hch (by simp [zeros]) exampleRetry_valid trivial hw hl
  obtain ⟨k', h3, h4⟩ := C101_client_crashes _ _ 256 ch (zeros 32) _ exampleRetry 0x17 ho (by simp [zeros]) exampleRetry_valid hg ⟨.secp256r1, by simp [Tls13.knownGroups]⟩ hw hl []
  rw [h3] at h1 h2
  simp only [Option.some.injEq] at h1
  subst h1
  rcases h2 with ⟨between, body, h2⟩ | ⟨e, code, h2, -⟩
  · rw [h4] at h2
    have := congrArg List.length h2
    simp only [List.length_append] at this
    have h5 : 5 ≤ (Tls13.plainRecord 22#8 (Tls13.handshakeMessage 1#8 body)).length := by
      simp [Tls13.plainRecord]
    omega
  · cases h2

/-- Neither party ever settles on a group in this way: whatever the HelloRetryRequest, the client does not send another ClientHello, and a
server that is asked to choose the group does not send a HelloRetryRequest. -/
theorem C101_no_retry :
    (∀ (env : ClientEnv) (rng : List Bytes) (n : Int) (ch sid w : Bytes) (r : Tls13.RetryRequest) (reads : List Bytes) (h : ClientHandshake),
      Offered env rng n ch → sid.length = 32 → r.Valid sid [0x1302, 0x1301, 0x1303] → Tls13.IsRecord 22#8 r.message w → w.length ≤ 2048 →
      (ClientConnection.connect env rng ⟨w :: reads, [], []⟩).2 = some h → ¬ HelloRepeated ch h.stream.stream.written) ∧
    (∀ (env : ServerEnv) (rng : List Bytes) (hello : Tls13.ClientHelloMsg) (w : Bytes) (reads : List Bytes), hello.Valid →
      hello.sessionId.length = 0 ∨ hello.sessionId.length = 32 → .keyShare [] ∈ hello.exts →
      Tls13.IsRecord 22#8 (Tls13.handshakeMessage 1#8 hello.bytes) w → w.length ≤ 4096 →
      ¬ RetrySent hello (ServerConnection.accept env rng ⟨w :: reads, [], []⟩).2.stream.stream.written) := by
  constructor
  · intro env rng n ch sid w r reads h ho hs hv hw hl hh
    have key : ∃ alert, h.stream.stream.written = Tls13.plainRecord 22#8 ch ++ alert ∧ alert.length ≤ 7 := by
      obtain ⟨h1, h2⟩ := C101_client_refuses env rng n ch sid w r ho hs hv hw hl reads
      by_cases hg : ∃ g, .group g ∈ r.exts
      · obtain ⟨g, hg⟩ := hg
        by_cases hk : ∃ x, (g, x) ∈ Tls13.knownGroups
        · obtain ⟨k, e1, e2⟩ := C101_client_crashes env rng n ch sid w r g ho hs hv hg hk hw hl reads
          rw [e1] at hh
          simp only [Option.some.injEq] at hh
          subst hh
          exact ⟨[], by rw [e2, List.append_nil], by simp⟩
        · obtain ⟨k, e1, e2⟩ := h1 g hg fun x hx => hk ⟨x, hx⟩
          rw [e1] at hh
          simp only [Option.some.injEq] at hh
          subst hh
          exact ⟨_, e2, by simp [Tls13.plainRecord]⟩
      · obtain ⟨k, e1, e2⟩ := h2 fun g hgm => hg ⟨g, hgm⟩
        rw [e1] at hh
        simp only [Option.some.injEq] at hh
        subst hh
        exact ⟨_, e2, by simp [Tls13.plainRecord]⟩
    obtain ⟨alert, h1, h2⟩ := key
    rintro ⟨between, body, h3⟩
    rw [h1] at h3
    have := congrArg List.length h3
    have h5 : 9 ≤ (Tls13.plainRecord 22#8 (Tls13.handshakeMessage 1#8 body)).length := by
      simp [Tls13.plainRecord, Tls13.handshakeMessage]
      omega
    simp only [List.length_append] at this
    omega
  · intro env rng hello w reads hv hs hk hw hl
    obtain ⟨e, h, _, e1, e2⟩ := C101_server_refuses env rng hello w hv hs hk hw hl reads
    rintro ⟨r, more, _, h3⟩
    rw [e1] at h3
    simp only [] at h3
    rw [e2] at h3
    have := congrArg List.head? h3
    simp [Tls13.plainRecord] at this

/-- The hypotheses about the server are met. -/
example : emptyShares.Valid ∧ .keyShare [] ∈ emptyShares.exts ∧ (Tls13.plainRecord 22#8 (Tls13.handshakeMessage 1#8 emptyShares.bytes)).length ≤ 4096 ∧
    Tls13.IsRecord 22#8 (Tls13.handshakeMessage 1#8 emptyShares.bytes) (Tls13.plainRecord 22#8 (Tls13.handshakeMessage 1#8 emptyShares.bytes)) :=
  ⟨emptyShares_valid, by simp [emptyShares], by decide, 3#8, 3#8, by decide, rfl⟩

/-- A HelloRetryRequest for a group no client knows, and one with a cookie only. -/
example : (⟨zeros 32, 0x1301, [.version, .group 0x6399]⟩ : Tls13.RetryRequest).Valid (zeros 32) [0x1302, 0x1301, 0x1303] ∧ (∀ x, (0x6399, x) ∉ Tls13.knownGroups) ∧
    (⟨zeros 32, 0x1301, [.cookie [1], .version]⟩ : Tls13.RetryRequest).Valid (zeros 32) [0x1302, 0x1301, 0x1303] := by
  refine ⟨⟨rfl, by decide, by simp, ?_, ?_, ?_, by decide⟩, by simp [Tls13.knownGroups], ⟨rfl, by decide, by simp, ?_, ?_, ?_, by decide⟩⟩ <;> simp <;> omega

end ATLS
