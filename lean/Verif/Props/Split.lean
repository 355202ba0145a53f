import Verif.Props.Retry
import Verif.Props.DeliveryDefs
/-
C102: handshake messages split over several records.
-/
namespace ATLS
open ATLS.Model ATLS.Spec ATLS.RecProof FlowProof

/-- The first part `a` of the message `m`, which is sent in two records: neither part is empty (RFC 8446, 5.1). -/
def SplitAt (m a b : Bytes) : Prop := m = a ++ b ∧ a ≠ [] ∧ b ≠ []

/-- The client's part, for the first parts in `P`: when the ServerHello message comes in two records, `connect` does as if it had come in one, or
ends with an error after a fatal alert. -/
def C102_client_for (P : Bytes → Prop) : Prop :=
  ∀ (env : ClientEnv) (rng : List Bytes) (n : Int) (ch body a b w w1 w2 : Bytes), Offered env rng n ch → body.length < 2 ^ 24 →
    SplitAt (Tls13.handshakeMessage 2#8 body) a b → P a → Tls13.IsRecord 22#8 (Tls13.handshakeMessage 2#8 body) w → Tls13.IsRecord 22#8 a w1 →
    Tls13.IsRecord 22#8 b w2 → w.length ≤ 2048 → w1.length ≤ 2048 →
    SameResult (ClientConnection.connect env rng ⟨[w], [], []⟩).1 (ClientConnection.connect env rng ⟨[w1, w2], [], []⟩).1 ∨
    ∃ e h code, ClientConnection.connect env rng ⟨[w1, w2], [], []⟩ = (.err e, some h) ∧
      h.stream.stream.written = Tls13.plainRecord 22#8 ch ++ Tls13.plainRecord 21#8 [2#8, code]

/-- The server's part: the same for the ClientHello and `accept`. -/
def C102_server_for (P : Bytes → Prop) : Prop :=
  ∀ (env : ServerEnv) (rng : List Bytes) (body a b w w1 w2 : Bytes), body.length < 2 ^ 24 →
    SplitAt (Tls13.handshakeMessage 1#8 body) a b → P a → Tls13.IsRecord 22#8 (Tls13.handshakeMessage 1#8 body) w → Tls13.IsRecord 22#8 a w1 →
    Tls13.IsRecord 22#8 b w2 → w.length ≤ 4096 → w1.length ≤ 4096 →
    SameResult (ServerConnection.accept env rng ⟨[w], [], []⟩).1 (ServerConnection.accept env rng ⟨[w1, w2], [], []⟩).1 ∨
    ∃ e h code, ServerConnection.accept env rng ⟨[w1, w2], [], []⟩ = (.err e, h) ∧ h.stream.stream.written = Tls13.plainRecord 21#8 [2#8, code]

/-- C102 in full. -/
def C102_statement : Prop := C102_client_for (fun _ => True) ∧ C102_server_for (fun _ => True)

namespace HelloProof

/-- The first part of a message is not a message. -/
theorem split_fromRaw (t : HandshakeType) (body a b : Bytes) (hb : body.length < 2 ^ 24) (hs : SplitAt (Tls13.handshakeMessage t.code body) a b) :
    Handshake.fromRaw a = if a.length < 4 then .err .decodeError else .panic := by
  obtain ⟨hm, -, hbn⟩ := hs
  split_ifs with h4
  · unfold Handshake.fromRaw
    rw [if_pos h4]
  · rw [C34_panics_iff]
    have hbl : 1 ≤ b.length := by
      cases b with
      | nil => exact absurd rfl hbn
      | cons _ _ => simp
    have hl := congrArg List.length hm
    have hm' : t.code :: (beBytes 3 body.length ++ body) = a ++ b := by rw [← hm]; simp [Tls13.handshakeMessage]
    rw [WireProof.beBytes3] at hm'
    rcases a with _ | ⟨a0, _ | ⟨a1, _ | ⟨a2, _ | ⟨a3, rest⟩⟩⟩⟩
    · simp at h4
    · simp at h4
    · simp at h4
    · simp at h4
    simp only [List.cons_append, List.nil_append, List.cons.injEq] at hm'
    obtain ⟨rfl, rfl, rfl, rfl, hr⟩ := hm'
    refine ⟨t, _, _, _, rest, rfl, ?_⟩
    have hrl := congrArg List.length hr
    rw [List.length_append] at hrl
    rw [← WireProof.beBytes3, beNat_beBytes, Nat.mod_eq_of_lt (lt_of_lt_of_eq hb (by norm_num))]
    omega

theorem handle_raw_client (env : ClientEnv) (record : Record) (k : ClientHandshake) {res : Res TlsError Unit} (hres : ∀ u, res ≠ .ok u)
    (hp : Handshake.fromRaw record.fraqment = (match res with | .ok _ => .panic | .err e => .err e | .panic => .panic)) :
    ClientHandshake.handleServerHello env record k = (res, k) := by
  unfold ClientHandshake.handleServerHello
  cases res with
  | ok u => exact absurd rfl (hres u)
  | err e => exact Step.bind_of_err (s := k) (by show (Handshake.fromRaw record.fraqment, k) = _; rw [hp])
  | panic => exact Step.bind_of_panic (s := k) (by show (Handshake.fromRaw record.fraqment, k) = _; rw [hp])

theorem handle_raw_server (env : ServerEnv) (record : Record) (k : ServerHandshake) {res : Res TlsError Unit} (hres : ∀ u, res ≠ .ok u)
    (hp : Handshake.fromRaw record.fraqment = (match res with | .ok _ => .panic | .err e => .err e | .panic => .panic)) :
    ServerHandshake.handleClientHello env record k = (res, k) := by
  unfold ServerHandshake.handleClientHello
  cases res with
  | ok u => exact absurd rfl (hres u)
  | err e => exact Step.bind_of_err (s := k) (by show (Handshake.fromRaw record.fraqment, k) = _; rw [hp])
  | panic => exact Step.bind_of_panic (s := k) (by show (Handshake.fromRaw record.fraqment, k) = _; rw [hp])

end HelloProof
open HelloProof

/-- What every client makes of the first part of a ServerHello, whatever follows: less than four bytes are refused
with an alert (of the code 51, see `C48_swapped`), more crash it. -/
theorem C102_client (env : ClientEnv) (rng : List Bytes) (n : Int) (ch body a b w1 : Bytes) (ho : Offered env rng n ch) (hb : body.length < 2 ^ 24)
    (hs : SplitAt (Tls13.handshakeMessage 2#8 body) a b) (hw : Tls13.IsRecord 22#8 a w1) (hl : w1.length ≤ 2048) (reads : List Bytes) :
    ∃ h, ClientConnection.connect env rng ⟨w1 :: reads, [], []⟩ = (if a.length < 4 then .err .decodeError else .panic, some h) ∧
      h.stream.stream.written = Tls13.plainRecord 22#8 ch ++ (if a.length < 4 then Tls13.plainRecord 21#8 [2#8, 51#8] else []) := by
  have hr := split_fromRaw .serverHello body a b hb hs
  split_ifs at hr ⊢ with h4
  · refine ClientProof.first_error (e := .decodeError) ho hw hl reads (by simp [NotAnswered]) fun record k hf _ => ?_
    exact handle_raw_client env record k (by simp) (by rw [hf, hr])
  · rw [List.append_nil]
    refine ClientProof.first_panic ho hw hl reads fun record k hf _ => ?_
    exact handle_raw_client env record k (by simp) (by rw [hf, hr])

/-- What every server makes of the first part of a ClientHello. -/
theorem C102_server (env : ServerEnv) (rng : List Bytes) (body a b w1 : Bytes) (hb : body.length < 2 ^ 24)
    (hs : SplitAt (Tls13.handshakeMessage 1#8 body) a b) (hw : Tls13.IsRecord 22#8 a w1) (hl : w1.length ≤ 4096) (reads : List Bytes) :
    ∃ h, ServerConnection.accept env rng ⟨w1 :: reads, [], []⟩ = (if a.length < 4 then .err .decodeError else .panic, h) ∧
      h.stream.stream.written = (if a.length < 4 then Tls13.plainRecord 21#8 [2#8, 51#8] else []) := by
  have hr := split_fromRaw .clientHello body a b hb hs
  split_ifs at hr ⊢ with h4
  · refine ServerProof.first_error env rng (e := .decodeError) hw hl reads (by simp [NotAnswered]) fun record k hf => ?_
    exact handle_raw_server env record k (by simp) (by rw [hf, hr])
  · refine ServerProof.first_panic env rng hw hl reads fun record k hf => ?_
    exact handle_raw_server env record k (by simp) (by rw [hf, hr])


/-- The same for the messages after the ServerHello, in every state in which the client waits for one: the protected record `record` holds the first
part of a message. -/
theorem C102_client_encrypted (env : ClientEnv) (h : ClientHandshake) (record : Record) (t : HandshakeType) (body a b : Bytes)
    (p p' : RecordPayloadProtection) (hp : h.stream.protection = some p) (hd : p.decrypt record = (.ok (.handshake, a), p'))
    (h1 : h.state ≠ .serverHello) (h2 : h.state ≠ .ready) (h3 : record.contentType = .applicationData) (hb : body.length < 2 ^ 24)
    (hs : SplitAt (Tls13.handshakeMessage t.code body) a b) :
    ClientHandshake.handleRecord env record h =
      (if a.length < 4 then .err .decodeError else .panic, { h with stream := h.stream.setProtection (some p') }) := by
  have hd' : ClientHandshake.decryptRecord record h = (.ok (.handshake, a), { h with stream := h.stream.setProtection (some p') }) := by
    unfold ClientHandshake.decryptRecord
    have e1 : ClientHandshake.getProtection h = (.ok p, h) := by unfold ClientHandshake.getProtection; rw [hp]; rfl
    refine (Step.bind_of_ok e1).trans ?_
    simp only [hd]
  have hr := split_fromRaw t body a b hb hs
  have he : ClientHandshake.handleEncryptedRecord env record h =
      (if a.length < 4 then .err .decodeError else .panic, { h with stream := h.stream.setProtection (some p') }) := by
    unfold ClientHandshake.handleEncryptedRecord
    rw [Step.bind_of_ok hd']
    simp only [ne_eq, not_true_eq_false, if_false]
    obtain ⟨c, rest, rfl⟩ : ∃ c rest, a = c :: rest := by
      cases a with
      | nil => exact absurd rfl hs.2.1
      | cons c rest => exact ⟨c, rest, rfl⟩
    rw [List.length_cons]
    unfold ClientHandshake.messagesLoop
    rw [if_neg (by simp)]
    rw [List.length_cons] at hr
    split_ifs at hr ⊢
    · exact Step.bind_of_err (by show (Handshake.fromRaw _, _) = _; rw [hr])
    · exact Step.bind_of_panic (by show (Handshake.fromRaw _, _) = _; rw [hr])
  unfold ClientHandshake.handleRecord
  rw [Step.bind_get, h3]
  simp only []
  cases hst : h.state <;> first | exact absurd hst h1 | exact absurd hst h2 | (rw [hst] at he; exact he)

/-- The server's side, for the client's Certificate, CertificateVerify and Finished. -/
theorem C102_server_encrypted (env : ServerEnv) (h : ServerHandshake) (record : Record) (t : HandshakeType) (body a b : Bytes)
    (p p' : RecordPayloadProtection) (hp : h.stream.protection = some p) (hd : p.decrypt record = (.ok (.handshake, a), p'))
    (h1 : h.state ≠ .clientHello) (h2 : h.state ≠ .ready) (h3 : record.contentType = .applicationData)
    (hc : env.config.clientCertCa.isSome → h.certificateRequestContext.isSome) (hb : body.length < 2 ^ 24)
    (hs : SplitAt (Tls13.handshakeMessage t.code body) a b) :
    ServerHandshake.handleRecord env record h =
      (if a.length < 4 then .err .decodeError else .panic, { h with stream := h.stream.setProtection (some p') }) := by
  have hd' : ServerHandshake.decryptRecord record h = (.ok (.handshake, a), { h with stream := h.stream.setProtection (some p') }) := by
    unfold ServerHandshake.decryptRecord
    have e1 : ServerHandshake.getProtection h = (.ok p, h) := by unfold ServerHandshake.getProtection; rw [hp]; rfl
    refine (Step.bind_of_ok e1).trans ?_
    simp only [hd]
  have hr := split_fromRaw t body a b hb hs
  have hf : (Record.new .handshake a).fraqment = a := rfl
  have he : ServerHandshake.handleEncryptedRecord env record h =
      (if a.length < 4 then .err .decodeError else .panic, { h with stream := h.stream.setProtection (some p') }) := by
    unfold ServerHandshake.handleEncryptedRecord
    rw [Step.bind_of_ok hd']
    simp only []
    rw [Step.bind_get]
    have hn : ¬ ((Record.new .handshake a).contentType ≠ .handshake ∨ (env.config.clientCertCa.isSome = true ∧ h.certificateRequestContext.isNone = true)) := by
      rintro (hx | ⟨hx, hy⟩)
      · exact hx rfl
      · have := hc hx
        cases hq : h.certificateRequestContext <;> simp_all
    rw [if_neg hn]
    simp only []
    split_ifs at hr ⊢
    all_goals cases hst : h.state
    all_goals first
      | exact absurd hst h1
      | exact absurd hst h2
      | (simp only [ServerHandshake.handleClientCertificate, ServerHandshake.handleClientCertificateVerify, ServerHandshake.handleClientFinish]
         first
         | exact Step.bind_of_err (by show (Handshake.fromRaw (Record.new .handshake a).fraqment, _) = _; rw [hf, hr])
         | exact Step.bind_of_panic (by show (Handshake.fromRaw (Record.new .handshake a).fraqment, _) = _; rw [hf, hr]))
  unfold ServerHandshake.handleRecord
  rw [Step.bind_get, h3]
  simp only []
  cases hst : h.state <;> first | exact absurd hst h1 | exact absurd hst h2 | (rw [hst] at he; exact he)

/-- C102 for first parts that do not hold the header of the message: they are refused with an alert. The full statement has no condition on the
first part; `C102_false`. -/
theorem C102_refused_partial : C102_client_for (fun a => a.length < 4) ∧ C102_server_for (fun a => a.length < 4) := by
  constructor
  · intro env rng n ch body a b w w1 w2 ho hb hs h4 _ hw1 _ _ hl
    obtain ⟨h, h1, h2⟩ := C102_client env rng n ch body a b w1 ho hb hs hw1 hl [w2]
    rw [if_pos h4] at h1 h2
    exact .inr ⟨_, h, _, h1, h2⟩
  · intro env rng body a b w w1 w2 hb hs h4 _ hw1 _ _ hl
    obtain ⟨h, h1, h2⟩ := C102_server env rng body a b w1 hb hs hw1 hl [w2]
    rw [if_pos h4] at h1 h2
    exact .inr ⟨_, h, _, h1, h2⟩

namespace HelloProof

/-- What breaks the client's part: a ServerHello, in one record answered by `connect` without a crash, in two. -/
theorem split_breaks_client {env : ClientEnv} {rng : List Bytes} {n : Int} {ch body a b : Bytes} {P : Bytes → Prop} (ho : Offered env rng n ch)
    (hb : body.length < 2000) (hs : SplitAt (Tls13.handshakeMessage 2#8 body) a b) (h4 : 4 ≤ a.length) (hP : P a)
    (hn : (ClientConnection.connect env rng ⟨[Tls13.plainRecord 22#8 (Tls13.handshakeMessage 2#8 body)], [], []⟩).1 ≠ .panic) :
    ¬ C102_client_for P := by
  intro h
  have hlen := congrArg List.length hs.1
  simp only [Tls13.handshakeMessage, List.length_append, List.length_cons, List.length_nil, beBytes_length] at hlen
  have hrec : ∀ x : Bytes, x.length < 2 ^ 16 → Tls13.IsRecord 22#8 x (Tls13.plainRecord 22#8 x) := fun x hx => ⟨3#8, 3#8, hx, rfl⟩
  have hpl : ∀ x : Bytes, (Tls13.plainRecord 22#8 x).length = 5 + x.length := by
    intro x
    simp [Tls13.plainRecord]
    omega
  have hml : (Tls13.handshakeMessage 2#8 body).length = 4 + body.length := by
    simp [Tls13.handshakeMessage]
    omega
  obtain ⟨k, h1, -⟩ := C102_client env rng n ch body a b _ ho (by omega) hs (hrec a (by omega)) (by rw [hpl]; omega) [Tls13.plainRecord 22#8 b]
  rw [if_neg (by omega)] at h1
  rcases h env rng n ch body a b _ _ _ ho (by omega) hs hP (hrec _ (by rw [hml]; omega)) (hrec a (by omega)) (hrec b (by omega))
    (by rw [hpl, hml]; omega) (by rw [hpl]; omega) with hsame | ⟨e, k', code, h3, -⟩
  · rw [h1] at hsame
    revert hn hsame
    generalize (ClientConnection.connect env rng ⟨[Tls13.plainRecord 22#8 (Tls13.handshakeMessage 2#8 body)], [], []⟩).1 = r
    intro hn hsame
    cases r with
    | ok s => exact hsame
    | err e => exact hsame
    | panic => exact hn rfl
  · rw [h1] at h3
    cases h3

theorem split_breaks_server {env : ServerEnv} {rng : List Bytes} {body a b : Bytes} {P : Bytes → Prop}
    (hb : body.length < 4000) (hs : SplitAt (Tls13.handshakeMessage 1#8 body) a b) (h4 : 4 ≤ a.length) (hP : P a)
    (hn : (ServerConnection.accept env rng ⟨[Tls13.plainRecord 22#8 (Tls13.handshakeMessage 1#8 body)], [], []⟩).1 ≠ .panic) :
    ¬ C102_server_for P := by
  intro h
  have hlen := congrArg List.length hs.1
  simp only [Tls13.handshakeMessage, List.length_append, List.length_cons, List.length_nil, beBytes_length] at hlen
  have hrec : ∀ x : Bytes, x.length < 2 ^ 16 → Tls13.IsRecord 22#8 x (Tls13.plainRecord 22#8 x) := fun x hx => ⟨3#8, 3#8, hx, rfl⟩
  have hpl : ∀ x : Bytes, (Tls13.plainRecord 22#8 x).length = 5 + x.length := by
    intro x
    simp [Tls13.plainRecord]
    omega
  have hml : (Tls13.handshakeMessage 1#8 body).length = 4 + body.length := by
    simp [Tls13.handshakeMessage]
    omega
  obtain ⟨k, h1, -⟩ := C102_server env rng body a b _ (by omega) hs (hrec a (by omega)) (by rw [hpl]; omega) [Tls13.plainRecord 22#8 b]
  rw [if_neg (by omega)] at h1
  rcases h env rng body a b _ _ _ (by omega) hs hP (hrec _ (by rw [hml]; omega)) (hrec a (by omega)) (hrec b (by omega))
    (by rw [hpl, hml]; omega) (by rw [hpl]; omega) with hsame | ⟨e, k', code, h3, -⟩
  · rw [h1] at hsame
    revert hn hsame
    generalize (ServerConnection.accept env rng ⟨[Tls13.plainRecord 22#8 (Tls13.handshakeMessage 1#8 body)], [], []⟩).1 = r
    intro hn hsame
    cases r with
    | ok s => exact hsame
    | err e => exact hsame
    | panic => exact hn rfl
  · rw [h1] at h3
    cases h3

end HelloProof

/-- C102 is false, for the client and for the server: messages that are answered when they come in one record crash the library when they come in two.
For every server and every ClientHello without key share (which the server refuses in one record), and for every client. -/
theorem C102_false : ¬ C102_statement ∧ ¬ C102_client_for (fun a => 4 ≤ a.length) ∧ ¬ C102_server_for (fun a => 4 ≤ a.length) := by
  have hc : ∀ P : Bytes → Prop, P [2#8, 0#8, 0#8, 1#8] → ¬ C102_client_for P := by
    intro P hP
    obtain ⟨ch, ho, -⟩ := retry_met
    have hs : SplitAt (Tls13.handshakeMessage 2#8 [7#8]) [2#8, 0#8, 0#8, 1#8] [7#8] := ⟨by decide, by simp, by simp⟩
    refine split_breaks_client ho (by decide) hs (by decide) hP ?_
    obtain ⟨k, h1, -⟩ := ClientProof.first_error (e := .illegalParameter) ho (c := Tls13.handshakeMessage 2#8 [7#8])
      (w := Tls13.plainRecord 22#8 (Tls13.handshakeMessage 2#8 [7#8])) ⟨3#8, 3#8, by decide, rfl⟩ (by decide) [] (by simp [NotAnswered]) fun record k hf _ => by
        exact handle_stop _ record k [7#8] (by decide) hf (by simp) (by rfl)
    rw [h1]
    simp
  have hs : ∀ P : Bytes → Prop, P ((Tls13.handshakeMessage 1#8 emptyShares.bytes).take 10) → ¬ C102_server_for P := by
    intro P hP
    have hs : SplitAt (Tls13.handshakeMessage 1#8 emptyShares.bytes) ((Tls13.handshakeMessage 1#8 emptyShares.bytes).take 10)
        ((Tls13.handshakeMessage 1#8 emptyShares.bytes).drop 10) := ⟨(List.take_append_drop _ _).symm, by decide, by decide⟩
    refine split_breaks_server (env := exampleServer none none) (rng := []) (by decide) hs (by decide) hP ?_
    obtain ⟨e, h, -, h1, -⟩ := C101_server_refuses (exampleServer none none) [] emptyShares _ emptyShares_valid (by decide) (by simp [emptyShares])
      (⟨3#8, 3#8, by decide, rfl⟩ : Tls13.IsRecord 22#8 (Tls13.handshakeMessage 1#8 emptyShares.bytes) (Tls13.plainRecord 22#8 (Tls13.handshakeMessage 1#8 emptyShares.bytes)))
      (by decide) []
    rw [h1]
    simp
  exact ⟨fun h => hc _ trivial h.1, hc _ (by decide), hs _ (by decide)⟩

/-- The hypotheses of the claims about the client are met: a ServerHello of three extensions, cut after three bytes and after fifty. -/
example : ∃ ch, Offered (exampleClient none) [zeros 100, zeros 100, zeros 100] 256 ch ∧
    SplitAt exampleRetry.message (exampleRetry.message.take 3) (exampleRetry.message.drop 3) ∧
    SplitAt exampleRetry.message (exampleRetry.message.take 50) (exampleRetry.message.drop 50) := by
  obtain ⟨ch, ho, -⟩ := retry_met
  exact ⟨ch, ho, ⟨(List.take_append_drop _ _).symm, by decide, by decide⟩, (List.take_append_drop _ _).symm, by decide, by decide⟩

/-- A protected record with the first ten bytes of a Finished message, in the states in which the two ends wait for it. -/
example : ∃ (h : ClientHandshake) (k : ServerHandshake) (p q p' q' : RecordPayloadProtection) (record record' : Record),
    h.stream.protection = some p ∧ p.decrypt record = (.ok (.handshake, (Tls13.handshakeMessage 20#8 (zeros 32)).take 10), p') ∧
    h.state ≠ .serverHello ∧ h.state ≠ .ready ∧ record.contentType = .applicationData ∧
    k.stream.protection = some q ∧ q.decrypt record' = (.ok (.handshake, (Tls13.handshakeMessage 20#8 (zeros 32)).take 10), q') ∧
    k.state ≠ .clientHello ∧ k.state ≠ .ready ∧ record'.contentType = .applicationData ∧
    SplitAt (Tls13.handshakeMessage HandshakeType.finished.code (zeros 32)) ((Tls13.handshakeMessage 20#8 (zeros 32)).take 10)
      ((Tls13.handshakeMessage 20#8 (zeros 32)).drop 10) := by
  obtain ⟨m, hm⟩ : ∃ m, m = (Tls13.handshakeMessage 20#8 (zeros 32)).take 10 := ⟨_, rfl⟩
  have key : ∀ c : Bool, ∃ r : Record, ((zeroProt c).decrypt r).1 = .ok (.handshake, m) ∧ r.contentType = .applicationData := by
    intro c
    refine ⟨⟨.applicationData, 771, 27, [23, 3, 3, 0, 27],
      (match ((zeroProt (!c)).encryptHandshake ((Tls13.handshakeMessage 20#8 (zeros 32)).take 10)).1 with | .ok w => w.drop 5 | _ => [])⟩, ?_, rfl⟩
    rw [hm]
    cases c <;> decide +kernel
  obtain ⟨r, h1, h2⟩ := key true
  obtain ⟨r', h1', h2'⟩ := key false
  rw [← hm]
  refine ⟨⟨⟨⟨[], [], []⟩, some (zeroProt true), []⟩, .finished, none, none, Rng.urandom [], none, ⟨.curve25519, 1⟩, none, none, none, []⟩,
    ⟨⟨⟨[], [], []⟩, some (zeroProt false), []⟩, .clientFinished, none, none, none, Rng.urandom [], none, none, []⟩,
    zeroProt true, zeroProt false, _, _, r, r', rfl, Prod.ext h1 rfl, by simp, by simp, h2, rfl, Prod.ext h1' rfl, by simp, by simp, h2', ?_⟩
  rw [hm]
  exact ⟨(List.take_append_drop _ _).symm, by decide, by decide⟩

end ATLS
