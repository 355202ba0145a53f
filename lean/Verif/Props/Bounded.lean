import Verif.Props.ServerComplete
import Verif.Props.ClientComplete
import Verif.Props.AgreementExample
import Verif.Props.Terminates
import Verif.Proof.EarlyClient
/-
C109: how much a peer has to send until the handshake is decided.
-/
namespace ATLS
open ATLS.Model ATLS.Spec

/-- What `accept` or `connect` has left of `incoming` when it returns: all but `n` bytes. -/
def TookAtMost (n : Nat) (incoming left : List Bytes) : Prop := incoming.flatten.length ≤ n + left.flatten.length

/-- C109 in full: there is an amount of data after which `accept` and `connect` return, with a stream or an error, whatever the data is. -/
def C109_statement : Prop :=
  ∃ n, (∀ (env : ServerEnv) (reads incoming : List Bytes), TookAtMost n incoming (ServerConnection.accept env reads ⟨incoming, [], []⟩).2.stream.stream.incoming) ∧
    ∀ (env : ClientEnv) (reads incoming : List Bytes) (h : ClientHandshake), (ClientConnection.connect env reads ⟨incoming, [], []⟩).2 = some h →
      TookAtMost n incoming h.stream.stream.incoming

namespace BoundProof
open ServerHandshake ServerProof

/-- Whatever a step does, when it succeeds it ends in one of these states. -/
def Ends (S : ServerHsState → Prop) {α : Type} (m : M α) : Prop := ∀ h a h', m h = (.ok a, h') → S h'.state

variable {S : ServerHsState → Prop}

theorem Ends.bind {α β : Type} {m : M α} {f : α → M β} (h : ∀ a, Ends S (f a)) : Ends S (m >>= f) := by
  intro s b s' hw
  obtain ⟨a, s1, _, h2⟩ := Step.bind_ok.1 hw
  exact h a _ _ _ h2

theorem Ends.throw {α : Type} (e : TlsError) : Ends S (Step.throw e : M α) := by
  intro s a s' hw
  cases (Prod.mk.inj hw).1

theorem Ends.crash {α : Type} : Ends S (Step.crash : M α) := by
  intro s a s' hw
  cases (Prod.mk.inj hw).1

theorem Ends.set {s : ServerHsState} (h : S s) : Ends S (setState s) := by
  intro k a k' hw
  obtain ⟨_, rfl⟩ := Prod.mk.inj hw
  exact h

theorem Ends.set_then {s : ServerHsState} (h : S s) {g : ServerHandshake → ServerHandshake} (hg : ∀ k, (g k).state = k.state) :
    Ends S (setState s >>= fun _ => (Step.modify g : M Unit)) := by
  intro k a k' hw
  obtain ⟨_, rfl⟩ := Prod.mk.inj hw
  show S (g _).state
  rw [hg]
  exact h

/-- A refused client. -/
def IsRefused (s : ServerHsState) : Prop := ∃ e, s = .finishWithError e

theorem hello_ends (env : ServerEnv) (r : Record) :
    Ends (· = if env.config.clientCertCa.isSome then .clientCertificate else .clientFinished) (handleClientHello env r) := by
  obtain ⟨s, hs⟩ : ∃ s, s = if env.config.clientCertCa.isSome then ServerHsState.clientCertificate else .clientFinished := ⟨_, rfl⟩
  unfold handleClientHello sendFlight
  rw [← hs]
  repeat' first
    | exact Ends.throw _
    | exact Ends.set_then (S := (· = s)) (by first | rfl | exact hs.symm) (fun _ => rfl)
    | refine Ends.bind fun _ => ?_
    | split

theorem certificate_ends (env : ServerEnv) (r : Record) :
    Ends (fun s => env.config.clientCertCa.isSome ∧ (s = .clientCertificateVerify ∨ IsRefused s)) (handleClientCertificate env r) := by
  unfold handleClientCertificate
  refine Ends.bind fun hs => ?_
  cases hca : env.config.clientCertCa with
  | none => exact Ends.throw _
  | some ca =>
    simp only []
    repeat' first
      | exact Ends.throw _
      | exact Ends.crash
      | exact Ends.set ⟨rfl, .inl rfl⟩
      | exact Ends.set ⟨rfl, .inr ⟨_, rfl⟩⟩
      | refine Ends.bind fun _ => ?_
      | split

theorem verify_ends (r : Record) : Ends (fun s => s = .clientFinished ∨ IsRefused s) (handleClientCertificateVerify r) := by
  unfold handleClientCertificateVerify
  repeat' first
    | exact Ends.throw _
    | exact Ends.crash
    | exact Ends.set (.inl rfl)
    | exact Ends.set (.inr ⟨_, rfl⟩)
    | refine Ends.bind fun _ => ?_
    | split

theorem update_state {b : Bytes} {h h' : ServerHandshake} {a : Unit} (hw : updateTshash b h = (.ok a, h')) : h'.state = h.state := by
  unfold updateTshash at hw
  sbind hw with ⟨t, h1, e1, hw⟩
  obtain ⟨_, rfl⟩ := Prod.mk.inj e1
  obtain ⟨_, rfl⟩ := Prod.mk.inj hw
  rfl

theorem finish_ends {h h' : ServerHandshake} {r : Record} (hw : handleClientFinish r h = (.ok (), h')) :
    (IsRefused h.state → h'.state = h.state) ∧ (¬ IsRefused h.state → h'.state = .ready) := by
  unfold handleClientFinish at hw
  slift hw with ⟨hs, e1, hw⟩
  rw [Step.bind_get] at hw
  split_ifs at hw with ht
  · cases hst : h.state with
    | finishWithError e =>
      rw [hst] at hw
      have := update_state hw
      exact ⟨fun _ => this.trans hst, fun h => absurd ⟨e, rfl⟩ h⟩
    | _ => rw [hst] at hw; cases (Prod.mk.inj hw).1
  · sbind hw with ⟨p, h1, e2, hw⟩
    obtain ⟨_, rfl⟩ := Prod.mk.inj e2
    sbind hw with ⟨t, h2, e3, hw⟩
    obtain ⟨_, rfl⟩ := Prod.mk.inj e3
    slift hw with ⟨vd, _, hw⟩
    split_ifs at hw with hv
    · cases (Prod.mk.inj hw).1
    slift hw with ⟨p', _, hw⟩
    sbind hw with ⟨_, h3, _, hw⟩
    sbind hw with ⟨_, h4, _, hw⟩
    cases hst : h.state with
    | finishWithError e => rw [hst] at hw; cases (Prod.mk.inj hw).1
    | _ =>
      rw [hst] at hw
      obtain ⟨_, rfl⟩ := Prod.mk.inj hw
      exact ⟨(fun ⟨e, he⟩ => by cases he), fun _ => rfl⟩

/-- How many records other than change_cipher_spec a client still has to send. -/
def rank (env : ServerEnv) : ServerHsState → Nat
  | .clientHello => if env.config.clientCertCa.isSome then 4 else 2
  | .clientCertificate => 3
  | .clientCertificateVerify => 2
  | .clientFinished => 1
  | _ => 0

/-- The states a server without client authentication can be in. -/
def Possible (env : ServerEnv) (s : ServerHsState) : Prop := env.config.clientCertCa = none → s = .clientHello ∨ s = .clientFinished ∨ s = .ready

/-- What handling data does to the state; `moves`: something other than change_cipher_spec was handled. -/
def Steps (env : ServerEnv) (moves : Prop) (s s' : ServerHsState) : Prop :=
  Possible env s' ∧ (IsRefused s → IsRefused s') ∧ (¬ IsRefused s → IsRefused s' ∨ rank env s' ≤ rank env s ∧ (moves → s ≠ .ready → rank env s' < rank env s))

theorem decrypt_state {record : Record} {h h' : ServerHandshake} {a : RecordType × Bytes} (hw : decryptRecord record h = (.ok a, h')) : h'.state = h.state := by
  unfold decryptRecord at hw
  sbind hw with ⟨p, h1, e1, hw⟩
  obtain ⟨_, rfl⟩ := Prod.mk.inj e1
  rcases hd : p.decrypt record with ⟨r, p'⟩
  rw [hd] at hw
  obtain ⟨_, rfl⟩ := Prod.mk.inj hw
  rfl

theorem encrypted_steps {env : ServerEnv} {record : Record} {h h' : ServerHandshake} (hp : Possible env h.state) (h0 : h.state ≠ .clientHello)
    (hw : handleEncryptedRecord env record h = (.ok (), h')) : Steps env True h.state h'.state := by
  unfold handleEncryptedRecord at hw
  sbind hw with ⟨⟨t, c⟩, h1, e1, hw⟩
  have hs := decrypt_state e1
  simp only [Step.bind_get] at hw
  split_ifs at hw with c1 c2
  · slift hw with ⟨_, _, hw⟩
    cases (Prod.mk.inj hw).1
  · cases (Prod.mk.inj hw).1
  · clear e1 c1
    cases hst : h.state with
    | clientHello => exact absurd hst h0
    | clientCertificate =>
      rw [hs, hst] at hw
      obtain ⟨q1, q2⟩ := certificate_ends env _ _ _ _ hw
      refine ⟨fun hn => (by rw [hn] at q1; cases q1), (fun ⟨e, he⟩ => by cases he), fun _ => ?_⟩
      rcases q2 with q2 | q2
      · rw [q2]; right; simp [rank]
      · exact .inl q2
    | clientCertificateVerify =>
      rw [hs, hst] at hw
      have q2 := verify_ends _ _ _ _ hw
      refine ⟨fun hn => ?_, (fun ⟨e, he⟩ => by cases he), fun _ => ?_⟩
      · rcases hp hn with h | h | h <;> rw [hst] at h <;> cases h
      · rcases q2 with q2 | q2
        · rw [q2]; right; simp [rank]
        · exact .inl q2
    | clientFinished =>
      rw [hs, hst] at hw
      have q := (finish_ends hw).2 (by rw [hs, hst]; rintro ⟨e, he⟩; cases he)
      rw [q]
      exact ⟨fun _ => .inr (.inr rfl), (fun ⟨e, he⟩ => by cases he), fun _ => .inr (by simp [rank])⟩
    | finishWithError e =>
      rw [hs, hst] at hw
      have q := (finish_ends hw).1 (by rw [hs, hst]; exact ⟨e, rfl⟩)
      rw [q, hs, ← hst]
      exact ⟨hp, id, fun h => absurd ⟨e, hst⟩ h⟩
    | ready =>
      rw [hs, hst] at hw
      obtain ⟨_, rfl⟩ := Prod.mk.inj hw
      rw [hs, hst]
      exact ⟨fun _ => .inr (.inr rfl), id, fun _ => .inr ⟨le_rfl, fun _ h => absurd rfl h⟩⟩

theorem record_steps {env : ServerEnv} {record : Record} {h h' : ServerHandshake} (hp : Possible env h.state)
    (hw : handleRecord env record h = (.ok (), h')) : Steps env (record.contentType ≠ .changeCipherSpec) h.state h'.state := by
  unfold handleRecord at hw
  rw [Step.bind_get] at hw
  have stay : ∀ (Q : Prop), h' = h → (Q → h.state = .ready) → Steps env Q h.state h'.state := by
    rintro Q rfl hq
    exact ⟨hp, id, fun _ => .inr ⟨le_rfl, fun q h => absurd (hq q) h⟩⟩
  have enc : h.state ≠ .clientHello → handleEncryptedRecord env record h = (.ok (), h') → Steps env (record.contentType ≠ .changeCipherSpec) h.state h'.state := by
    intro h0 hw
    obtain ⟨a, b, c⟩ := encrypted_steps hp h0 hw
    exact ⟨a, b, fun hr => (c hr).imp_right fun ⟨d, e⟩ => ⟨d, fun _ => e trivial⟩⟩
  have main : record.contentType ≠ .alert → record.contentType ≠ .changeCipherSpec →
      (match h.state with
      | .clientHello => if record.contentType ≠ RecordType.handshake then (.throw .unexpectedMessage : M Unit) else handleClientHello env record
      | .ready => pure ()
      | _ => handleEncryptedRecord env record) h = (.ok (), h') → Steps env (record.contentType ≠ .changeCipherSpec) h.state h'.state := by
    intro _ hc hw
    cases hst : h.state with
    | clientHello =>
      rw [hst] at hw
      simp only [] at hw
      split_ifs at hw
      · cases (Prod.mk.inj hw).1
      have q := hello_ends env _ _ _ _ hw
      refine ⟨fun hn => ?_, (fun ⟨e, he⟩ => by cases he), fun _ => .inr ?_⟩
      · rw [hn] at q; exact .inr (.inl q)
      · rw [q]
        by_cases hca : env.config.clientCertCa.isSome = true <;> simp [hca, rank]
    | ready =>
      rw [hst] at hw
      rw [← hst]
      exact stay _ (Prod.mk.inj hw).2.symm fun _ => hst
    | _ =>
      rw [hst] at hw
      rw [← hst]
      exact enc (by rw [hst]; simp) hw
  cases hc : record.contentType with
  | changeCipherSpec =>
    rw [hc] at hw
    simp only [] at hw
    split_ifs at hw
    · cases (Prod.mk.inj hw).1
    · exact stay _ (Prod.mk.inj hw).2.symm fun q => absurd rfl q
  | alert =>
    rw [hc] at hw
    simp only [] at hw
    slift hw with ⟨_, _, hw⟩
    cases (Prod.mk.inj hw).1
  | _ =>
    rw [← hc]
    rw [hc] at hw
    refine main (by rw [hc]; simp) (by rw [hc]; simp) ?_
    rw [hc]
    exact hw

theorem Steps.trans {env : ServerEnv} {m m' : Prop} {s s1 s2 : ServerHsState} (h1 : Steps env m s s1) (h2 : Steps env m' s1 s2) : Steps env m s s2 := by
  obtain ⟨_, b1, c1⟩ := h1
  obtain ⟨a2, b2, c2⟩ := h2
  refine ⟨a2, fun h => b2 (b1 h), fun h => ?_⟩
  rcases c1 h with hr | ⟨l1, l2⟩
  · exact .inl (b2 hr)
  · by_cases hr : IsRefused s1
    · exact .inl (b2 hr)
    · exact (c2 hr).imp_right fun ⟨l3, _⟩ => ⟨l3.trans l1, fun hm hs => l3.trans_lt (l2 hm hs)⟩

theorem fromRaw_ccs {buf : Bytes} {n : Nat} {r : Record} (h : Record.fromRaw buf = .ok (n, r)) (hc : r.contentType = .changeCipherSpec) : buf.head? = some 20#8 := by
  cases buf with
  | nil => cases h
  | cons b l =>
    unfold Record.fromRaw at h
    split_ifs at h with hl
    obtain ⟨b0, e0, g0⟩ := Res.bind_eq_ok.1 h
    obtain ⟨t, e1, g1⟩ := Res.bind_eq_ok.1 g0
    obtain ⟨b1, e2, g2⟩ := Res.bind_eq_ok.1 g1
    obtain ⟨b2, e3, g3⟩ := Res.bind_eq_ok.1 g2
    obtain ⟨b3, e4, g4⟩ := Res.bind_eq_ok.1 g3
    obtain ⟨b4, e5, g5⟩ := Res.bind_eq_ok.1 g4
    clear h g0 g1 g2 g3 g4
    have hb : b = b0 := by
      have : (idx (b :: l) 0 : Res TlsError Byte) = .ok b := rfl
      rw [this] at e0
      exact Res.ok.inj e0
    subst hb
    have hr : t = r.contentType := by
      by_cases hx : (b :: l).length < 2 + (b3.toNat * 256 + b4.toNat)
      · rw [if_pos hx] at g5
        cases g5
      · rw [if_neg hx] at g5
        obtain ⟨hd, e6, g6⟩ := Res.bind_eq_ok.1 g5
        obtain ⟨fr, e7, g7⟩ := Res.bind_eq_ok.1 g6
        rw [← (Prod.mk.inj (Res.ok.inj g7)).2]
    rw [hr, hc] at e1
    unfold RecordType.new at e1
    by_cases k : b = 20#8
    · rw [k]; rfl
    · rw [if_neg k] at e1
      split_ifs at e1 <;> cases e1

theorem records_steps {env : ServerEnv} : ∀ (fuel : Nat) (rest : Bytes) (h h' : ServerHandshake), Possible env h.state →
    recordsLoop env fuel rest h = (.ok (), h') → Steps env (rest ≠ [] ∧ rest.head? ≠ some 20#8) h.state h'.state
  | 0, rest, h, h', hp, hw => by
    unfold recordsLoop at hw
    split_ifs at hw with hr
    · obtain ⟨_, rfl⟩ := Prod.mk.inj hw
      exact ⟨hp, id, fun _ => .inr ⟨le_rfl, fun q => absurd hr q.1⟩⟩
    · cases (Prod.mk.inj hw).1
  | fuel + 1, rest, h, h', hp, hw => by
    unfold recordsLoop at hw
    split_ifs at hw with hr
    · obtain ⟨_, rfl⟩ := Prod.mk.inj hw
      exact ⟨hp, id, fun _ => .inr ⟨le_rfl, fun q => absurd hr q.1⟩⟩
    · slift hw with ⟨⟨n, r⟩, e1, hw⟩
      sbind hw with ⟨_, h1, e2, hw⟩
      have s1 := record_steps hp e2
      have s2 := records_steps fuel _ h1 h' s1.1 hw
      have := s1.trans s2
      refine ⟨this.1, this.2.1, fun hh => (this.2.2 hh).imp_right fun ⟨a, b⟩ => ⟨a, fun q => b fun hc => q.2 (fromRaw_ccs e1 hc)⟩⟩

theorem records_rel {i j : List Bytes} (env : ServerEnv) : ∀ (fuel : Nat) (rest : Bytes), Step.Rel (Alike i j) (recordsLoop env fuel rest)
  | 0, rest => by
    unfold recordsLoop
    split_ifs
    · exact Step.Rel.pure _
    · exact Step.Rel.crash
  | fuel + 1, rest => by
    unfold recordsLoop
    split_ifs
    · exact Step.Rel.pure _
    · exact Step.Rel.bind (Step.Rel.lift _) fun _ => Step.Rel.bind (Rel.record _) fun _ => records_rel env fuel _

/-- Handling records does not read. -/
theorem records_in (env : ServerEnv) (fuel : Nat) (rest : Bytes) (h : ServerHandshake) (hf : h.stream.stream.failures = []) :
    (recordsLoop env fuel rest h).2.stream.stream.incoming = h.stream.stream.incoming ∧ (recordsLoop env fuel rest h).2.stream.stream.failures = [] := by
  obtain ⟨_, s, e, ha⟩ := records_rel (i := h.stream.stream.incoming) (j := h.stream.stream.incoming) env fuel rest h h ⟨h.stream, rfl, rfl, rfl, hf, hf, rfl, rfl⟩
  exact ⟨ha.pending, ha.calm⟩

/-- A refused client does not get through. -/
theorem refused_reads {env : ServerEnv} : ∀ (fuel : Nat) (h h' : ServerHandshake), Possible env h.state → IsRefused h.state → readLoop env fuel h ≠ (.ok (), h')
  | 0, h, h', _, _ => fun hw => by cases (Prod.mk.inj hw).1
  | fuel + 1, h, h', hp, hr => fun hw => by
    unfold readLoop at hw
    rw [Step.bind_get, if_neg (by obtain ⟨e, he⟩ := hr; rw [he]; simp)] at hw
    sbind hw with ⟨rx, h1, e1, hw⟩
    have s1 : h1.state = h.state := by
      unfold onStream at e1
      obtain ⟨_, rfl⟩ := Prod.mk.inj e1
      rfl
    sbind hw with ⟨_, h2, e2, hw⟩
    have s2 := records_steps _ _ _ _ (by rw [s1]; exact hp) e2
    sbind hw with ⟨_, h3, e3, hw⟩
    have s3 : h3.state = h2.state := by
      unfold onStream at e3
      obtain ⟨_, rfl⟩ := Prod.mk.inj e3
      rfl
    exact refused_reads fuel h3 h' (by rw [s3]; exact s2.1) (by rw [s3]; exact s2.2.1 (by rw [s1]; exact hr)) hw

/-- The segments that do not begin with a change_cipher_spec record. -/
def others (l : List Bytes) : List Bytes := l.filter fun b => b.head? ≠ some 20#8

theorem reads_bound {env : ServerEnv} : ∀ (fuel : Nat) (h : ServerHandshake), h.stream.stream.failures = [] →
    (∀ b ∈ h.stream.stream.incoming, b ≠ [] ∧ b.length ≤ 4096) → Possible env h.state → ¬ IsRefused h.state →
    (env.config.clientCertCa = none ∨ (readLoop env fuel h).1 = .ok ()) →
    ∃ k, (readLoop env fuel h).2.stream.stream.incoming = h.stream.stream.incoming.drop k ∧ (others (h.stream.stream.incoming.take k)).length ≤ rank env h.state
  | 0, h, _, _, _, _, _ => ⟨0, rfl, Nat.zero_le _⟩
  | fuel + 1, h, hf, hl, hp, hnr, hq => by
    by_cases hs : h.state = .ready
    · have : readLoop env (fuel + 1) h = (.ok (), h) := by
        unfold readLoop
        rw [Step.bind_get, if_pos hs]
        rfl
      rw [this]
      exact ⟨0, rfl, Nat.zero_le _⟩
    cases hi : h.stream.stream.incoming with
    | nil =>
      have : readLoop env (fuel + 1) h = (.err .brokenPipe, h) := by
        unfold readLoop
        rw [Step.bind_get, if_neg hs]
        have e1 : onStream (fun s => s.tcpRead 4096) h = (.err .brokenPipe, h) := by
          unfold onStream TlsStream.tcpRead
          simp only [hi]
        exact Step.bind_of_err e1
      rw [this]
      exact ⟨0, hi, Nat.zero_le _⟩
    | cons b l =>
      obtain ⟨hb, hbl⟩ := hl b (by rw [hi]; simp)
      obtain ⟨h1, hh1⟩ : ∃ h1 : ServerHandshake, h1 = { h with stream := { h.stream with stream := { h.stream.stream with incoming := l } } } := ⟨_, rfl⟩
      have e1 : onStream (fun s => s.tcpRead 4096) h = (.ok b, h1) := by
        unfold onStream TlsStream.tcpRead
        simp only [hi, hh1]
        rw [List.take_of_length_le hbl, List.drop_of_length_le hbl, if_neg hb, if_pos rfl]
      have hw : readLoop env (fuel + 1) h = (recordsLoop env b.length b >>= fun _ => onStream TlsStream.flush >>= fun _ => readLoop env fuel) h1 := by
        conv_lhs => unfold readLoop
        rw [Step.bind_get, if_neg hs]
        exact Step.bind_of_ok e1
      have hf1 : h1.stream.stream.failures = [] := by rw [hh1]; exact hf
      have hi1 : h1.stream.stream.incoming = l := by rw [hh1]
      have hs1 : h1.state = h.state := by rw [hh1]
      obtain ⟨c1, c2⟩ := records_in env b.length b h1 hf1
      have one : (others [b]).length ≤ rank env h.state := by
        have : (others [b]).length ≤ 1 := by
          unfold others
          exact (List.length_filter_le _ _).trans (by simp)
        refine this.trans ?_
        cases hst : h.state with
        | ready => exact absurd hst hs
        | finishWithError e => exact absurd ⟨e, hst⟩ hnr
        | clientHello => simp only [rank]; split <;> omega
        | _ => simp [rank]
      rw [hw] at hq ⊢
      rcases hr : recordsLoop env b.length b h1 with ⟨_ | e | _, h2⟩
      · rw [hr] at c1 c2
        simp only [] at c1 c2
        have st := records_steps _ _ _ _ (by rw [hs1]; exact hp) hr
        rw [hs1] at st
        obtain ⟨h3, hh3⟩ : ∃ h3, h3 = (onStream TlsStream.flush h2).2 := ⟨_, rfl⟩
        have ef : onStream TlsStream.flush h2 = (.ok (), h3) := by
          rw [hh3]
          unfold onStream
          rw [FlowProof.flush_run _ c2]
        have hw3 : (recordsLoop env b.length b >>= fun _ => onStream TlsStream.flush >>= fun _ => readLoop env fuel) h1 = readLoop env fuel h3 :=
          (Step.bind_of_ok hr).trans (Step.bind_of_ok ef)
        have g1 : h3.stream.stream.failures = [] ∧ h3.stream.stream.incoming = l ∧ h3.state = h2.state := by
          rw [hh3]
          unfold onStream
          rw [FlowProof.flush_run _ c2]
          exact ⟨c2, c1.trans hi1, rfl⟩
        rw [hw3] at hq ⊢
        obtain ⟨g1, g2, g3⟩ := g1
        by_cases hr3 : IsRefused h3.state
        · exfalso
          rcases hq with hq | hq
          · rcases st.1 hq with h | h | h <;> rw [g3, h] at hr3 <;> obtain ⟨e, he⟩ := hr3 <;> cases he
          · exact refused_reads fuel h3 _ (by rw [g3]; exact st.1) hr3 (Prod.ext hq rfl)
        · obtain ⟨k, k1, k2⟩ := reads_bound fuel h3 g1 (by rw [g2]; intro x hx; exact hl x (by rw [hi]; simp [hx])) (by rw [g3]; exact st.1) hr3 hq
          refine ⟨k + 1, by rw [k1, g2, List.drop_succ_cons], ?_⟩
          rw [List.take_succ_cons]
          rw [g2, g3] at k2
          rw [g3] at hr3
          rcases st.2.2 hnr with h | ⟨l1, l2⟩
          · exact absurd h hr3
          · by_cases hc : b.head? = some 20#8
            · have : others (b :: l.take k) = others (l.take k) := by simp [others, hc]
              rw [this]
              exact k2.trans l1
            · have : others (b :: l.take k) = b :: others (l.take k) := by simp [others, hc]
              rw [this, List.length_cons]
              have := l2 ⟨hb, hc⟩ hs
              omega
      · rw [hr] at c1
        rw [Step.bind_of_err hr]
        exact ⟨1, by simpa using c1.trans hi1, by simpa using one⟩
      · rw [hr] at c1
        rw [Step.bind_of_panic hr]
        exact ⟨1, by simpa using c1.trans hi1, by simpa using one⟩

/-- The alert at the end reads nothing and does not turn an error into success. -/
theorem alert_in (e : TlsError) (h : ServerHandshake) :
    ((do
      if e.discr < TlsError.notOfficial.discr then onStream fun s => s.writeAlert e else pure ()
      .throw (reported e) : M Unit) h).2.stream.stream.incoming = h.stream.stream.incoming ∧
    ∀ a, ((do
      if e.discr < TlsError.notOfficial.discr then onStream fun s => s.writeAlert e else pure ()
      .throw (reported e) : M Unit) h).1 ≠ .ok a := by
  have h1 : ∀ s : TlsStream, (s.writeAlert e).2.stream.incoming = s.stream.incoming := by
    intro s
    unfold TlsStream.writeAlert
    have hp := RoundsProof.protect_in s (Record.new .alert [(AlertLevel.getFromError e).code, e.asU8])
    rcases hw : s.protectRecord (Record.new .alert [(AlertLevel.getFromError e).code, e.asU8]) with ⟨raw | _ | _, s'⟩
    · rw [hw] at hp
      simp only [] at hp ⊢
      have := RoundsProof.writeAll_in s'.stream raw
      rcases hq : s'.stream.writeAll raw with ⟨_ | _, sock⟩ <;> rw [hq] at this <;> simp only [] at this ⊢ <;> rw [this, hp]
    · rw [hw] at hp; simp only [] at hp ⊢; rw [hp]
    · rw [hw] at hp; simp only [] at hp ⊢; rw [hp]
  by_cases hd : e.discr < TlsError.notOfficial.discr
  · simp only [if_pos hd]
    rw [Step.bind_eq]
    have h2 := h1 h.stream
    unfold onStream
    simp only []
    generalize h.stream.writeAlert e = y at h2 ⊢
    rcases y with ⟨_ | _ | _, s'⟩ <;> exact ⟨h2, fun a ha => by cases ha⟩
  · simp only [if_neg hd]
    exact ⟨rfl, fun a ha => by cases ha⟩

end BoundProof

open BoundProof ServerProof in
/-- C109, the server: without client authentication two segments that do not begin with a change_cipher_spec record are enough for a result of `accept`; and with
client authentication it takes at most four of them to get in. (`k`: how many segments are read.) -/
theorem C109_server_partial (env : ServerEnv) (reads incoming : List Bytes) (r : Res TlsError TlsStream) (h : ServerHandshake)
    (hl : ∀ b ∈ incoming, b ≠ [] ∧ b.length ≤ 4096) (hw : ServerConnection.accept env reads ⟨incoming, [], []⟩ = (r, h))
    (hq : env.config.clientCertCa = none ∨ ∃ s, r = .ok s) :
    ∃ k, h.stream.stream.incoming = incoming.drop k ∧
      ((incoming.take k).filter fun b => b.head? ≠ some 20#8).length ≤ if env.config.clientCertCa.isSome then 4 else 2 := by
  unfold ServerConnection.accept ServerHandshake.doHandshakeWithError ServerHandshake.doHandshake at hw
  obtain ⟨h0, hh0⟩ : ∃ h0, h0 = ServerHandshake.new env (TlsStream.new ⟨incoming, [], []⟩) reads := ⟨_, rfl⟩
  rw [← hh0] at hw
  have e1 : h0.stream.stream.incoming = incoming := by rw [hh0]; rfl
  have e2 : h0.stream.stream.failures = [] := by rw [hh0]; rfl
  have e3 : h0.state = .clientHello := by rw [hh0]; rfl
  obtain ⟨fuel, hfuel⟩ : ∃ fuel, fuel = (h0.stream.stream.incoming.map List.length).sum + h0.stream.stream.incoming.length + 2 := ⟨_, rfl⟩
  rw [← hfuel] at hw
  have key := reads_bound (env := env) fuel h0 e2 (by rw [e1]; exact hl) (by intro _; exact .inl e3) (by rw [e3]; rintro ⟨e, he⟩; cases he)
  rw [e1, e3] at key
  rcases hr : ServerHandshake.readLoop env fuel h0 with ⟨_ | e | _, h1⟩
  · rw [hr] at hw key
    obtain ⟨_, rfl⟩ := Prod.mk.inj hw
    exact key (.inr rfl)
  · rw [hr] at hw key
    obtain ⟨a1, a2⟩ := alert_in e h1
    simp only [] at hw
    generalize ((do
      if e.discr < TlsError.notOfficial.discr then ServerHandshake.onStream fun s => s.writeAlert e else pure ()
      .throw (ServerHandshake.reported e) : ServerHandshake.M Unit) h1) = y at hw a1 a2
    rcases y with ⟨v | e' | _, h2⟩
    · exact absurd rfl (a2 v)
    · obtain ⟨rfl, rfl⟩ := Prod.mk.inj hw
      rw [a1]
      exact key (.inl (by rcases hq with hq | ⟨s, hq⟩; exact hq; cases hq))
    · obtain ⟨rfl, rfl⟩ := Prod.mk.inj hw
      rw [a1]
      exact key (.inl (by rcases hq with hq | ⟨s, hq⟩; exact hq; cases hq))
  · rw [hr] at hw key
    obtain ⟨rfl, rfl⟩ := Prod.mk.inj hw
    exact key (.inl (by rcases hq with hq | ⟨s, hq⟩; exact hq; cases hq))

/-- A change_cipher_spec record. -/
def ccsRecord : Bytes := Tls13.plainRecord 20#8 [1#8]

namespace BoundProof

theorem flood {a : Tls13.Seal} {key iv : Bytes} {seq : Nat} {contents records : List Bytes} (h : Tls13.ProtectedFlight a key iv seq contents records) :
    ∀ n : Nat, Tls13.ProtectedFlight a key iv seq contents (List.replicate n ccsRecord ++ records)
  | 0 => h
  | n + 1 => .ccs _ _ [1#8] _ _ ⟨3#8, 3#8, by decide, by decide⟩ (flood h n)

theorem heads {a : Tls13.Seal} {key iv : Bytes} {seq : Nat} {contents records : List Bytes} (h : Tls13.ProtectedFlight a key iv seq contents records) :
    ∀ w ∈ records, (¬ ∃ c, Tls13.IsRecord 20#8 c w) → w.head? ≠ some 20#8 := by
  induction h with
  | nil => simp
  | ccs seq contents c w ws h1 _ ih =>
    intro v hv hn
    rcases List.mem_cons.1 hv with rfl | hv
    · exact absurd ⟨_, h1⟩ hn
    · exact ih v hv hn
  | cons seq c cs w ws h1 _ ih =>
    intro v hv hn
    rcases List.mem_cons.1 hv with rfl | hv
    · obtain ⟨_, _, _, _, rfl, _⟩ := h1
      simp [Tls13.protectedHeader]
    · exact ih v hv hn

theorem nonempty {a : Tls13.Seal} {key iv : Bytes} {seq : Nat} {contents records : List Bytes} (h : Tls13.ProtectedFlight a key iv seq contents records) : [] ∉ records := by
  induction h with
  | nil => simp
  | ccs seq contents c w ws h1 _ ih =>
    rintro h
    rcases List.mem_cons.1 h with h | h
    · obtain ⟨v1, v2, _, e⟩ := h1
      rw [← h] at e
      cases e
    · exact ih h
  | cons seq c cs w ws h1 _ ih =>
    rintro h
    rcases List.mem_cons.1 h with h | h
    · obtain ⟨_, _, _, _, e, _⟩ := h1
      rw [← h] at e
      cases e
    · exact ih h

theorem flood_length (n : Nat) : (List.replicate n ccsRecord).flatten.length = 6 * n := by
  induction n with
  | zero => rfl
  | succ n ih =>
    rw [List.replicate_succ, List.flatten_cons, List.length_append, ih]
    have : ccsRecord.length = 6 := by decide
    omega

end BoundProof

/-- C109, the server is kept waiting: between the ClientHello and the rest of its flight every client may send as many change_cipher_spec records as it likes; the
server reads them all and then accepts. -/
theorem C109_server_flood (env : ServerEnv) (reads : List Bytes) (r : Exchange) (rng : Rng) (context : Option Bytes) (auth : List Bytes) (rest : Bytes)
    (records : List Bytes) (last : Bytes) (n : Nat) (hu : env.config.prngType = .urandom) (hcert : env.config.cert.raw.length + 200 ≤ 2 ^ 24)
    (hc : Conforming env reads r rng context auth rest (records ++ [last])) (hlast : ¬ ∃ c, Tls13.IsRecord 20#8 c last)
    (hl : ∀ w ∈ r.chRec :: (records ++ [last]), w.length ≤ 4096) :
    ∃ s h, ServerConnection.accept env reads ⟨r.chRec :: (List.replicate n ccsRecord ++ (records ++ [last])), [], []⟩ = (.ok s, h) ∧ s.stream.incoming = [] := by
  have hc' : Conforming env reads r rng context auth rest ((List.replicate n ccsRecord ++ records) ++ [last]) := by
    have := BoundProof.flood hc.records n
    rw [← List.append_assoc] at this
    exact { hc with records := this }
  have hd : Tls13.Delivers 4096 (r.chRec :: ((List.replicate n ccsRecord ++ records) ++ [last])) (r.chRec :: ((List.replicate n ccsRecord ++ records) ++ [last])) := by
    apply Tls13.delivers_single
    intro w hw
    simp only [List.mem_cons, List.mem_append, List.mem_replicate] at hw hl
    rcases hw with rfl | (⟨_, rfl⟩ | hw) | hw
    · exact hl _ (.inl rfl)
    · decide
    · exact hl _ (.inr (.inl hw))
    · exact hl _ (.inr (.inr hw))
  obtain ⟨s, h, _, _, h1, _, _, _, _, _, _, _, h2, _⟩ := C75_server_leaves env reads r rng context auth rest _ last _ [] hu hcert hc' (BoundProof.heads hc.records last (by simp) hlast) hd
  rw [List.append_nil, List.append_assoc] at h1
  exact ⟨s, h, h1, h2⟩

/-- C109, the client likewise: after its hello every server may send as many change_cipher_spec records as it likes. -/
theorem C109_client_flood (env : ClientEnv) (rng : List Bytes) (k : Int) (x : FlowProof.Params) (ch sh shRec messages : Bytes) (auth init : List Bytes) (fin : Bytes) (n : Nat)
    (hown : ∀ c, env.config.clientCert = some c → c.raw.length + 400 ≤ 2 ^ 24) (hc : ConformingServer env rng k x ch sh shRec messages auth (init ++ [fin]))
    (hfin : ¬ ∃ c, Tls13.IsRecord 20#8 c fin) (hl : ∀ w ∈ shRec :: (init ++ [fin]), w.length ≤ 2048) :
    ∃ s h, ClientConnection.connect env rng ⟨shRec :: (List.replicate n ccsRecord ++ (init ++ [fin])), [], []⟩ = (.ok s, h) ∧ s.stream.incoming = [] := by
  have hc' : ConformingServer env rng k x ch sh shRec messages auth ((List.replicate n ccsRecord ++ init) ++ [fin]) := by
    obtain ⟨ee, requests, cm, cv, cert, contents, f1, f2, f3, f4, f5, f6, f7⟩ := hc.flight
    have := BoundProof.flood f6 n
    rw [← List.append_assoc] at this
    exact { hc with flight := ⟨ee, requests, cm, cv, cert, contents, f1, f2, f3, f4, f5, this, f7⟩ }
  have hd : Tls13.Pieces 2048 [] (shRec :: ((List.replicate n ccsRecord ++ init) ++ [fin])) (shRec :: ((List.replicate n ccsRecord ++ init) ++ [fin])) := by
    apply Tls13.Delivers.pieces
    apply Tls13.delivers_single
    intro w hw
    simp only [List.mem_cons, List.mem_append, List.mem_replicate] at hw hl
    rcases hw with rfl | (⟨_, rfl⟩ | hw) | hw
    · exact hl _ (.inl rfl)
    · decide
    · exact hl _ (.inr (.inl hw))
    · exact hl _ (.inr (.inr hw))
  obtain ⟨s, h, _, _, h1, _, _, h2, _⟩ := ClientProof.stops_pieces hown hc' hfin [] hd
  rw [List.append_nil, List.append_assoc] at h1
  exact ⟨s, h, h1, h2⟩

/-- The example server and client, with client authentication: both are kept waiting. -/
theorem C109_example (n : Nat) : ∃ se sreads ce creads tail tail' hello hello' s s' h h', tail ≠ [] ∧ tail' ≠ [] ∧ se.config.cert.raw.length < 2 ^ 24 ∧
    ServerConnection.accept se sreads ⟨hello :: (List.replicate n ccsRecord ++ tail), [], []⟩ = (.ok s, h) ∧ s.stream.incoming = [] ∧
    ClientConnection.connect ce creads ⟨hello' :: (List.replicate n ccsRecord ++ tail'), [], []⟩ = (.ok s', h') ∧ s'.stream.incoming = [] := by
  obtain ⟨-, ⟨ca, kc, ks, q, r, rng, auth, ws, cws, R⟩⟩ := PairProof.example_runs
  have size : (Spec.X509.certificate ownTbs ownR ownS).length + 400 ≤ 2 ^ 24 := by decide +kernel
  have hsz : (Spec.X509.certificate ownTbs ownR ownS).length ≤ 1800 := by decide +kernel
  obtain ⟨init', fin', hws, hfin'⟩ := R.serverLast
  rcases List.eq_nil_or_concat cws with hnil | ⟨init, fin, hcws⟩
  · have := R.count
    rw [hnil] at this
    simp at this
  rw [List.concat_eq_append] at hcws
  have hcnt := R.count
  have hfc := R.fromClient
  have hfs := R.fromServer hsz
  have hcl := R.client
  have hsv := R.server
  rw [hcws] at hcl hfc hcnt
  rw [hws] at hsv hfs
  obtain ⟨s, h, a1, a2⟩ := C109_server_flood _ _ r rng _ auth [] init fin n rfl (by show (Spec.X509.certificate ownTbs ownR ownS).length + 200 ≤ _; omega) hcl
    ((PairProof.no_ccs hcl.records).2 (by rw [hcnt]; simp) fin (by simp)) hfc
  obtain ⟨s', h', b1, b2⟩ := C109_client_flood _ _ _ r.x r.ch r.sh _ _ auth (r.ccs :: init') fin' n (fun c hc => by rw [← Option.some.inj hc]; exact size) hsv hfin' hfs
  exact ⟨_, _, _, _, init ++ [fin], (r.ccs :: init') ++ [fin'], _, _, s, s', h, h', by simp, by simp, by show (Spec.X509.certificate ownTbs ownR ownS).length < _; omega,
    a1, a2, b1, b2⟩

/-- C109 does not hold: no amount of data ends a handshake. -/
theorem C109_false : ¬ C109_statement := by
  rintro ⟨n, h1, _⟩
  obtain ⟨se, sreads, _, _, tail, _, hello, _, s, _, h, _, _, _, hc, a1, a2, _⟩ := C109_example (n + 1)
  have := h1 se sreads (hello :: (List.replicate (n + 1) ccsRecord ++ tail))
  rw [a1] at this
  obtain ⟨e, _⟩ := ServerProof.accept_inv hc a1
  unfold TookAtMost at this
  rw [← e, a2, List.flatten_cons, List.flatten_append, List.length_append, List.length_append, BoundProof.flood_length] at this
  simp only [List.flatten_nil, List.length_nil] at this
  omega

/-- The hypotheses of `C109_server_partial` are met by a complete exchange with client authentication, and by an input that is refused. -/
example : ∃ env reads incoming r h, (∀ b ∈ incoming, b ≠ [] ∧ b.length ≤ 4096) ∧ incoming ≠ [] ∧ ServerConnection.accept env reads ⟨incoming, [], []⟩ = (r, h) ∧
    (∃ s, r = .ok s) := by
  obtain ⟨-, ⟨ca, kc, ks, q, r, rng, auth, ws, cws, R⟩⟩ := PairProof.example_runs
  have hsz : (Spec.X509.certificate ownTbs ownR ownS).length ≤ 1800 := by decide +kernel
  obtain ⟨ss, h, a1, a2⟩ := AgreeProof.run_accepted R rfl hsz
  refine ⟨_, _, r.chRec :: cws, _, h, fun b hb => ⟨?_, R.fromClient b hb⟩, by simp, a1, ss, rfl⟩
  rintro rfl
  rcases List.mem_cons.1 hb with hb | hb
  · rw [R.rec_] at hb
    cases hb
  · exact (BoundProof.nonempty R.client.records) hb

end ATLS
