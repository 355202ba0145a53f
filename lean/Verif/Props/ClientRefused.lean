import Verif.Proof.ClientErr
import Verif.Props.Refused
import Verif.Props.Joint
import Verif.Props.ClientTrust
import Verif.Props.Answer
/-
C105: the alert by which a client ends the handshake can be read by the server.
-/
namespace ATLS
open ATLS.Model ATLS.Spec FlowProof

/-- The bytes `incoming` begin with a record whose content answers the client's offer `ch` (private key `n`) with a ServerHello that gives the
session `x`. -/
def HelloAccepted (n : Int) (ch incoming : Bytes) (x : Params) : Prop :=
  ∃ sh w : Bytes, Tls13.IsRecord 22#8 sh w ∧ w <+: incoming ∧ ServerAnswered x n ch sh

namespace ClientProof
open ClientHandshake RecProof NegProof

/-- The client waits for the ServerHello; `w` is all that was written. -/
def Awaiting (n : Int) (ch w : Bytes) (h : ClientHandshake) : Prop :=
  h.state = .serverHello ∧ h.stream.protection = none ∧ h.stream.stream.written = w ∧ h.stream.buffer = [] ∧ h.clientHelloBytes = some ch ∧
    h.certificateRequest = none ∧ h.privateKey = ⟨.curve25519, n⟩ ∧ h.keylog = none ∧ h.logged = [] ∧
    ∀ sh, h.clientHelloRandom = some (((ch ++ sh).drop 6).take 32)

/-- The client has taken the ServerHello, and then `N` bytes of records. -/
def CInv (env : ClientEnv) (n : Int) (ch w total : Bytes) (N : Nat) (h : ClientHandshake) : Prop :=
  h.state ≠ .serverHello ∧ ∃ x seen nr, HelloAccepted n ch total x ∧ x.Ok ∧ x.hellos.length < 2 ^ 27 ∧ Inv env x w seen nr h ∧ seen.length ≤ N ∧ nr ≤ N ∧
    At env x w h

/-- The state in which the client gives up with the error `e`. -/
def EndsAt (env : ClientEnv) (n : Int) (ch w total : Bytes) (e : TlsError) (h : ClientHandshake) : Prop :=
  NotAnswered e ∨ ((¬ ∃ x, HelloAccepted n ch total x) ∧ h.stream.protection = none ∧ h.stream.stream.written = w ∧ h.stream.buffer = []) ∨
    ∃ x, HelloAccepted n ch total x ∧ x.Ok ∧ (Keyed x w h ∨ At env x w h)

theorem serverHello_err {env : ClientEnv} {h h' : ClientHandshake} {record : Record} {e : TlsError} (hw : handleServerHello env record h = (.err e, h')) :
    h'.stream = h.stream := by
  unfold handleServerHello at hw
  rcases Step.lift_bind_err hw with ⟨_, rfl⟩ | ⟨hs, _, hw⟩
  · rfl
  split_ifs at hw
  · exact congrArg ClientHandshake.stream (Prod.mk.inj hw).2.symm
  rcases Step.lift_bind_err hw with ⟨_, rfl⟩ | ⟨sh, _, hw⟩
  · rfl
  rcases Step.lift_bind_err hw with ⟨_, rfl⟩ | ⟨t, _, hw⟩
  · rfl
  rw [Step.bind_get] at hw
  rcases Step.lift_bind_err hw with ⟨_, rfl⟩ | ⟨hello, _, hw⟩
  · rfl
  simp only [] at hw
  rcases Step.lift_bind_err hw with ⟨_, rfl⟩ | ⟨kse, _, hw⟩
  · rfl
  rcases Step.lift_bind_err hw with ⟨_, rfl⟩ | ⟨ks, _, hw⟩
  · rfl
  rcases Step.lift_bind_err hw with ⟨_, rfl⟩ | ⟨ci, _, hw⟩
  · rfl
  rcases Step.lift_bind_err hw with ⟨_, rfl⟩ | ⟨pr, _, hw⟩
  · rfl
  rcases Step.bind_err hw with hw | ⟨u, h1, _, hw⟩
  · have : Step.Pres (fun k => k.stream = h.stream) (logHandshakeSecrets env pr) := by
      unfold logHandshakeSecrets
      pres
      exact same_mod fun _ => rfl
    have := this h rfl
    rw [hw] at this
    exact this
  · unfold setProtection at hw
    rw [Step.bind_modify, Step.bind_modify] at hw
    exact absurd (Prod.mk.inj hw).1 (by simp)

theorem messages_kept {env : ClientEnv} :
    ∀ (fuel : Nat) (rest : Bytes) (h h' : ClientHandshake) (e : TlsError) (r : Res TlsError Unit), h.state = .finishWithError e →
      messagesLoop env fuel rest h = (r, h') → r ≠ .panic → h' = h
  | 0, rest, h, h', e, r, hs, hw, hne => by
    unfold messagesLoop at hw
    split_ifs at hw with hr
    · exact (Prod.mk.inj hw).2.symm
    · exact absurd (Prod.mk.inj hw).1.symm hne
  | fuel + 1, rest, h, h', e, r, hst, hw, hne => by
    unfold messagesLoop at hw
    split_ifs at hw with hr
    · exact (Prod.mk.inj hw).2.symm
    cases hf : Handshake.fromRaw rest with
    | panic =>
      rw [hf] at hw
      exact (Prod.mk.inj hw).2.symm
    | err e =>
      rw [hf] at hw
      exact (Prod.mk.inj hw).2.symm
    | ok hs =>
      rw [Step.bind_lift_ok hf] at hw
      have hm : handleMessage env hs h = handleServerFinish env hs h := by
        unfold handleMessage
        rw [Step.bind_get]
        simp only [hst]
      rcases hq : handleServerFinish env hs h with ⟨r1, h1⟩
      rw [hq] at hm
      cases r1 with
      | panic =>
        rw [Step.bind_of_panic hm] at hw
        exact absurd (Prod.mk.inj hw).1.symm hne
      | err e =>
        rw [Step.bind_of_err hm] at hw
        rw [← (Prod.mk.inj hw).2]
        exact finish_kept hst hq
      | ok u =>
        rw [Step.bind_of_ok hm] at hw
        have := finish_err hst hq
        subst this
        exact messages_kept fuel _ h1 h' e r hst hw hne

/-- The first record. -/
theorem first_at {env : ClientEnv} {n : Int} {ch w total buf : Bytes} {k : Nat} {record : Record} {h h' : ClientHandshake} {r : Res TlsError Unit}
    (hw : handleRecord env record h = (r, h')) (hch : ch.length < 2 ^ 26)
    (hr : Record.fromRaw buf = .ok (k, record)) (hbt : buf <+: total) (hi : Awaiting n ch w h) :
    (∀ e, r = .err e → EndsAt env n ch w total e h') ∧ (r = .ok () → ∀ N, CInv env n ch w total N h') := by
  obtain ⟨hrec, _, _, _, hfl, hn5, hnl⟩ := fromRaw_isRecord hr
  obtain ⟨i0, i1, i2, i3, i4, i5, i6, i7, i8, i9⟩ := hi
  have hpre : buf.take k <+: total := (List.take_prefix _ _).trans hbt
  have hno : (∃ x, HelloAccepted n ch total x) → record.contentType = .handshake ∧ ∃ x, ServerAnswered x n ch record.fraqment := by
    rintro ⟨x, sh, w', a1, ⟨r1, a2⟩, a3⟩
    obtain ⟨r2, b2⟩ := hpre
    obtain ⟨e1, e2⟩ := JointProof.record_prefix hrec a1 (b2.trans a2.symm)
    obtain ⟨v1, v2, _, hq⟩ := hrec
    obtain ⟨u1, u2, _, hq'⟩ := a1
    rw [e1] at hq
    rw [hq] at hq'
    simp only [List.cons_append, List.cons.injEq, List.nil_append] at hq'
    refine ⟨?_, x, ?_⟩
    · have := hq'.1
      revert this
      cases record.contentType <;> simp [RecordType.code]
    · have hl := hq'.2.2.2
      have h1 := List.append_inj hl (by simp)
      rw [h1.2]
      exact a3
  unfold handleRecord at hw
  rw [Step.bind_get] at hw
  have plain : ∀ e, r = .err e → h'.stream = h.stream → (¬ ∃ x, HelloAccepted n ch total x) → EndsAt env n ch w total e h' := by
    intro e _ hs hx
    refine .inr (.inl ⟨hx, ?_, ?_, ?_⟩)
    · rw [hs]; exact i1
    · rw [hs]; exact i2
    · rw [hs]; exact i3
  by_cases hccs : record.contentType = .changeCipherSpec
  · rw [hccs] at hw
    simp only [] at hw
    rw [if_pos i0] at hw
    have h1 := (Prod.mk.inj hw).1
    have h2 := (Prod.mk.inj hw).2
    subst h2
    refine ⟨fun e he => plain e he rfl fun hx => ?_, fun he => ?_⟩
    · have := (hno hx).1
      rw [hccs] at this
      exact absurd this (by simp)
    · rw [← h1] at he
      exact absurd he (by simp)
  by_cases hal : record.contentType = .alert
  · rw [hal] at hw
    simp only [] at hw
    refine ⟨?_, ?_⟩
    · rintro e rfl
      rcases Step.lift_bind_err hw with ⟨hw, _⟩ | ⟨c, _, hw⟩
      · exact absurd hw (idx_not_err _ _ _)
      · have := Res.err.inj (Prod.mk.inj hw).1
        exact .inl (.inl ⟨c, this.symm⟩)
    · rintro rfl
      slift hw with ⟨c, e2, hw⟩
      exact absurd hw Step.throw_ok
  have hw' : ((if record.contentType ≠ .handshake then .throw .unexpectedMessage else handleServerHello env record) : M Unit) h = (r, h') := by
    rw [i0] at hw
    revert hw
    cases hct : record.contentType <;> first | exact absurd hct hccs | exact absurd hct hal | exact id
  clear hw
  by_cases hct : record.contentType = .handshake
  swap
  · rw [if_pos hct] at hw'
    have h1 := (Prod.mk.inj hw').1
    have h2 := (Prod.mk.inj hw').2
    subst h2
    refine ⟨fun e he => plain e he rfl fun hx => hct (hno hx).1, fun he => ?_⟩
    rw [← h1] at he
    exact absurd he (by simp)
  rw [if_neg (by simpa using hct)] at hw'
  refine ⟨?_, ?_⟩
  · rintro e rfl
    refine plain e rfl (serverHello_err hw') fun hx => ?_
    obtain ⟨_, x, hx⟩ := hno hx
    have hl : x.hellos.length < 2 ^ 53 := by
      obtain ⟨_, _, _, _, _, _, _, _, _, _, _, _, hhl⟩ := hx
      rw [hhl, List.length_append]
      omega
    obtain ⟨p, kl, lg, g1, _⟩ := serverHello_of (env := env) hx i4 (i9 []) hl i6
    rw [g1] at hw'
    exact absurd (Prod.mk.inj hw').1 (by simp)
  · rintro rfl N
    obtain ⟨x, p, j1, j2, j3, j4, j5, j6, j7, j8, j9⟩ := serverHello_ok hw' i4 hch i6 hfl
    rw [hct] at hrec
    refine ⟨by rw [j7]; simp, x, [], 0, ⟨_, _, hrec, hpre, j1⟩, j2, j3, ?_, by simp, by simp, ?_⟩
    · unfold Inv
      simp only [j7]
      refine ⟨p, by rw [j5]; rfl, j4, by rw [j6]; simp, ⟨?_, j9 i9 i7 i8⟩, ?_⟩
      · rw [j5]
        change h.stream.stream.written ++ h.stream.buffer = w
        rw [i2, i3, List.append_nil]
      · unfold Got
        simp only [j7]
        exact ⟨trivial, by rw [j8, i5]⟩
    · refine .inl ⟨⟨by rw [j5]; exact i2, by rw [j5]; exact i3, p, by rw [j5]; rfl, j4.cipher, ?_⟩, by rw [j7]; simp⟩
      exact j4.w

/-- A later record. -/
theorem record_at {env : ClientEnv} {n : Int} {ch w total buf : Bytes} {k N : Nat} {record : Record} {h h' : ClientHandshake} {r : Res TlsError Unit}
    (hkc : Keyful env) (hcl : ∀ c, env.config.clientCert = some c → c.raw.length + 400 ≤ 2 ^ 24)
    (hw : handleRecord env record h = (r, h')) (hne : r ≠ .panic)
    (hr : Record.fromRaw buf = .ok (k, record)) (hsz : N + k < 2 ^ 50) (hc : Calm h.stream) (hi : CInv env n ch w total N h) :
    (∀ e, r = .err e → EndsAt env n ch w total e h') ∧ (r = .ok () → CInv env n ch w total (N + k) h') := by
  obtain ⟨hns, x, seen, nr, i1, i2, i3, i4, i5, i6, i7⟩ := hi
  have same : h' = h → r = .ok () → CInv env n ch w total (N + k) h' := by
    rintro rfl _
    exact ⟨hns, x, seen, nr, i1, i2, i3, i4, by omega, by omega, i7⟩
  unfold handleRecord at hw
  rw [Step.bind_get] at hw
  by_cases hccs : record.contentType = .changeCipherSpec
  · rw [hccs] at hw
    simp only [] at hw
    rw [if_neg hns] at hw
    have h1 := (Prod.mk.inj hw).1
    have h2 := (Prod.mk.inj hw).2
    subst h1
    exact ⟨fun e he => absurd he (by simp), same h2.symm⟩
  by_cases hal : record.contentType = .alert
  · rw [hal] at hw
    simp only [] at hw
    refine ⟨?_, ?_⟩
    · rintro e rfl
      rcases Step.lift_bind_err hw with ⟨hw, _⟩ | ⟨c, _, hw⟩
      · exact absurd hw (idx_not_err _ _ _)
      · have := Res.err.inj (Prod.mk.inj hw).1
        exact .inl (.inl ⟨c, this.symm⟩)
    · rintro rfl
      slift hw with ⟨c, e2, hw⟩
      exact absurd hw Step.throw_ok
  have hw' : ((match h.state with
    | .serverHello =>
      if record.contentType ≠ .handshake then .throw .unexpectedMessage else handleServerHello env record
    | .ready => pure ()
    | _ => handleEncryptedRecord env record) : M Unit) h = (r, h') := by
    revert hw
    cases hct : record.contentType <;> first | exact absurd hct hccs | exact absurd hct hal | exact id
  clear hw
  by_cases hrd : h.state = .ready
  · rw [hrd] at hw'
    have h1 := (Prod.mk.inj hw').1
    have h2 := (Prod.mk.inj hw').2
    subst h1
    exact ⟨fun e he => absurd he (by simp), same h2.symm⟩
  have hw : handleEncryptedRecord env record h = (r, h') := by
    revert hw'
    cases hst : h.state <;> first | exact absurd hst hns | exact absurd hst hrd | exact id
  clear hw' same
  have hk : Keyed x w h := by
    rcases i7 with i7 | i7
    · exact i7.1
    · exact absurd i7.2.1 hrd
  obtain ⟨k1, k2, p, k3, k4, k5⟩ := hk
  obtain ⟨q, hq⟩ : ∃ q, q = (p.decrypt record).2 := ⟨_, rfl⟩
  obtain ⟨d1, d2⟩ := decrypt_write p record
  rw [← hq] at d1 d2
  obtain ⟨g, hg⟩ : ∃ g : ClientHandshake, g = { h with stream := h.stream.setProtection (some q) } := ⟨_, rfl⟩
  have hdec : decryptRecord record h = ((p.decrypt record).1, g) := by
    unfold decryptRecord
    refine (Step.bind_of_ok (protection_of k3)).trans ?_
    rw [hg, hq]
  have hkg : Keyed x w g := by
    rw [hg]
    exact ⟨k1, k2, q, rfl, by rw [d1]; exact k4, by rw [d2]; exact k5⟩
  have hgs : g.state = h.state := by rw [hg]
  have hcg : Calm g.stream := by rw [hg]; exact hc
  have hag : At env x w g := .inl ⟨hkg, by rw [hgs]; exact hrd⟩
  have stop : ∀ e, r = .err e → h' = g → EndsAt env n ch w total e h' := by
    rintro e _ rfl
    exact .inr (.inr ⟨x, i1, i2, .inl hkg⟩)
  unfold handleEncryptedRecord at hw
  cases hd : (p.decrypt record).1 with
  | panic =>
    rw [hd] at hdec
    rw [Step.bind_of_panic hdec] at hw
    exact absurd (Prod.mk.inj hw).1.symm hne
  | err e0 =>
    rw [hd] at hdec
    rw [Step.bind_of_err hdec] at hw
    have h1 := (Prod.mk.inj hw).1
    have h2 := (Prod.mk.inj hw).2
    subst h1
    exact ⟨fun e he => stop e he h2.symm, fun he => absurd he (by simp)⟩
  | ok v =>
    obtain ⟨t, content⟩ := v
    rw [hd] at hdec
    rw [Step.bind_of_ok hdec] at hw
    simp only [] at hw
    by_cases ht : t = .handshake
    swap
    · rw [if_pos ht] at hw
      split_ifs at hw with hta
      · refine ⟨?_, ?_⟩
        · rintro e rfl
          rcases Step.lift_bind_err hw with ⟨hw, _⟩ | ⟨c, _, hw⟩
          · exact absurd hw (idx_not_err _ _ _)
          · have := Res.err.inj (Prod.mk.inj hw).1
            exact .inl (.inl ⟨c, this.symm⟩)
        · rintro rfl
          slift hw with ⟨c, e2, hw⟩
          exact absurd hw Step.throw_ok
      · have h1 := (Prod.mk.inj hw).1
        have h2 := (Prod.mk.inj hw).2
        subst h1
        exact ⟨fun e he => stop e he h2.symm, fun he => absurd he (by simp)⟩
    subst ht
    rw [if_neg (by simp)] at hw
    by_cases hfe : ∃ e, h.state = .finishWithError e
    · obtain ⟨e0, hfe⟩ := hfe
      have := messages_kept _ _ _ _ e0 r (by rw [hgs]; exact hfe) hw hne
      refine ⟨fun e he => stop e he this, fun he => ?_⟩
      rw [this]
      refine ⟨by rw [hgs]; exact hns, x, seen, nr, i1, i2, i3, ?_, by omega, by omega, hag⟩
      unfold Inv
      simp only [hgs, hfe]
    have hcont : content.length ≤ k ∧ Inv env x w seen (nr + 1) g := by
      have hi : ∃ p, h.stream.protection = some p ∧ HsProt x true p 0 nr ∧ h.tshash = some (ts x.t (x.hellos ++ seen)) ∧
          (out h.stream = w ∧ Logs env.config.keylog x h.keylog h.logged) ∧ Got env x seen h := by
        unfold Inv at i4
        cases hs : h.state with
        | ready => exact absurd hs hrd
        | finishWithError e => exact absurd ⟨e, hs⟩ hfe
        | serverHello => exact absurd hs hns
        | encryptedExtensions => simp only [hs] at i4; exact i4
        | clientCertificateRequest => simp only [hs] at i4; exact i4
        | serverCertificate => simp only [hs] at i4; exact i4
        | serverCertificateVerify => simp only [hs] at i4; exact i4
        | finished => simp only [hs] at i4; exact i4
      obtain ⟨p0, j1, j2, j3, j4, j5⟩ := hi
      obtain ⟨p', hgp, g1, g2, g3⟩ := decryptRecord_ok i2 hdec j1 j2 (by omega) hr (by decide)
      refine ⟨g2, ?_⟩
      have big : ∃ q, g.stream.protection = some q ∧ HsProt x true q 0 (nr + 1) ∧ g.tshash = some (ts x.t (x.hellos ++ seen)) ∧
          (out g.stream = w ∧ Logs env.config.keylog x g.keylog g.logged) ∧ Got env x seen g := by
        rw [hgp]
        exact ⟨p', rfl, g1, j3, j4, j5⟩
      unfold Inv
      cases hs : g.state with
      | ready => rw [hgs] at hs; exact absurd hs hrd
      | finishWithError e => trivial
      | serverHello => rw [hgs] at hs; exact absurd hs hns
      | encryptedExtensions => exact big
      | clientCertificateRequest => exact big
      | serverCertificate => exact big
      | serverCertificateVerify => exact big
      | finished => exact big
    obtain ⟨hcl1, hig⟩ := hcont
    have hl : (x.hellos ++ seen ++ content).length < 2 ^ 51 := by simp only [List.length_append]; omega
    obtain ⟨m1, m2⟩ := messages_at i2 hkc hcl _ content seen g h' r hl hig (by rw [hgs]; exact hns) hcg hag hw hne
    refine ⟨fun e he => .inr (.inr ⟨x, i1, i2, m1 e he⟩), ?_⟩
    rintro rfl
    obtain ⟨n1, n2, n3⟩ := messages_inv i2 (fun c h => by have := hcl c h; omega) _ content seen g h' hl hig (by rw [hgs]; exact hns) hw
    exact ⟨n3, x, seen ++ content, nr + 1, i1, i2, i3, n1, by rw [List.length_append]; omega, by
      have := (fromRaw_isRecord hr).2.2.2.2.2.1
      omega, m2 rfl⟩

theorem Awaiting.moved {n : Int} {ch w : Bytes} {h : ClientHandshake} (hi : Awaiting n ch w h) {s : TlsStream} (h1 : s.protection = h.stream.protection)
    (h2 : s.stream.written = h.stream.stream.written) (h3 : s.buffer = h.stream.buffer) : Awaiting n ch w { h with stream := s } := by
  unfold Awaiting at hi ⊢
  simp only [h1, h2, h3]
  exact hi

theorem CInv.moved {env : ClientEnv} {n : Int} {ch w total : Bytes} {N : Nat} {h : ClientHandshake} (hi : CInv env n ch w total N h) {s : TlsStream}
    (h1 : s.protection = h.stream.protection) (h2 : s.stream.written = h.stream.stream.written) (h3 : s.buffer = h.stream.buffer) :
    CInv env n ch w total N { h with stream := s } := by
  obtain ⟨hns, x, seen, nr, i1, i2, i3, i4, i5, i6, i7⟩ := hi
  have ho : out s = out h.stream := by unfold out; rw [h2, h3]
  refine ⟨hns, x, seen, nr, i1, i2, i3, ?_, i5, i6, ?_⟩
  · unfold Inv Done Got at i4 ⊢
    simp only [] at i4 ⊢
    rw [ho, h1]
    exact i4
  · unfold At Keyed Done at i7 ⊢
    simp only [] at i7 ⊢
    rw [ho, h1, h2, h3]
    exact i7

theorem CInv.empty {env : ClientEnv} {n : Int} {ch w total : Bytes} {N : Nat} {h : ClientHandshake} (hi : CInv env n ch w total N h) : h.stream.buffer = [] := by
  obtain ⟨_, _, _, _, _, _, _, _, _, _, i7 | i7⟩ := hi
  · exact i7.1.2.1
  · exact i7.1

theorem flush_nothing {h : ClientHandshake} (hb : h.stream.buffer = []) : onStream TlsStream.flush h = (.ok (), h) := by
  rcases h with ⟨⟨s, p, b⟩, _⟩
  have hb : b = [] := hb
  subst hb
  rfl

theorem record_incoming {env : ClientEnv} {record : Record} {h h' : ClientHandshake} {r : Res TlsError Unit} (hc : Calm h.stream)
    (hw : handleRecord env record h = (r, h')) : h'.stream.stream.incoming = h.stream.stream.incoming := by
  obtain ⟨_, h2⟩ := Rel.record (env := env) record h h ⟨h.stream, rfl, alike_refl hc⟩
  rw [hw] at h2
  obtain ⟨s, _, hs⟩ := h2
  exact hs.pending

/-- The records of one read. -/
theorem records_at {env : ClientEnv} {n : Int} {ch w total rx B D : Bytes} (hkc : Keyful env)
    (hcl : ∀ c, env.config.clientCert = some c → c.raw.length + 400 ≤ 2 ^ 24) (hch : ch.length < 2 ^ 26) (hB : B = if D = [] then rx else D) :
    ∀ (fuel offset N : Nat) (h h' : ClientHandshake) (r : Res TlsError Bytes), offset ≤ B.length →
      (Awaiting n ch w h ∧ offset = 0 ∧ B <+: total ∨ CInv env n ch w total N h) → Calm h.stream →
      N + (B.length - offset) < 2 ^ 50 → recordsLoop env rx fuel offset D h = (r, h') → r ≠ .panic →
      (∀ e, r = .err e → EndsAt env n ch w total e h') ∧
      (∀ D', r = .ok D' → D' <:+ B ∧ h'.stream.stream.incoming = h.stream.stream.incoming ∧
        (Awaiting n ch w h' ∧ D' = B ∧ h.state = .serverHello ∨ ∃ N', N' ≤ N + (B.length - offset) ∧ CInv env n ch w total N' h'))
  | 0, _, _, _, _, _, _, _, _, _, hw, hne => absurd (Prod.mk.inj hw).1.symm hne
  | fuel + 1, offset, N, h, h', r, ho, hi, hc, hsz, hw, hne => by
    unfold recordsLoop at hw
    by_cases hcont : offset < rx.length ∨ D ≠ []
    swap
    · rw [if_neg hcont] at hw
      have h1 := (Prod.mk.inj hw).1
      have h2 := (Prod.mk.inj hw).2
      subst h1 h2
      have hD : D = [] := by
        by_contra hne
        exact hcont (.inr hne)
      refine ⟨fun e he => absurd he (by simp), fun D' he => ?_⟩
      cases he
      refine ⟨by rw [hD]; exact List.nil_suffix, rfl, ?_⟩
      rcases hi with ⟨i1, i2, i3⟩ | hi
      · refine .inl ⟨i1, ?_, i1.1⟩
        rw [hB, if_pos hD, hD]
        have : ¬ offset < rx.length := fun hlt => hcont (.inl hlt)
        exact (List.length_eq_zero_iff.1 (by omega)).symm
      · exact .inr ⟨N, by omega, hi⟩
    rw [if_pos hcont] at hw
    have hsl : ∀ (v : Bytes), (if D = [] then sliceFrom rx offset else sliceFrom D offset : Res TlsError Bytes) = .ok v → v = B.drop offset := by
      intro v hv
      rw [hB]
      split_ifs at hv ⊢ with hD
      · unfold sliceFrom at hv
        split_ifs at hv
        exact (Res.ok.inj hv).symm
      · unfold sliceFrom at hv
        split_ifs at hv
        exact (Res.ok.inj hv).symm
    cases e1 : (if D = [] then sliceFrom rx offset else sliceFrom D offset : Res TlsError Bytes) with
    | panic =>
      rw [e1] at hw
      exact absurd (Prod.mk.inj hw).1.symm hne
    | err e =>
      split_ifs at e1
      · exact absurd e1 (sliceFrom_not_err _ _ _)
      · exact absurd e1 (sliceFrom_not_err _ _ _)
    | ok buf =>
      rw [Step.bind_lift_ok e1] at hw
      have hbuf := hsl buf e1
      cases hr : Record.fromRaw buf with
      | panic => rw [hr] at hw; exact absurd (Prod.mk.inj hw).1.symm hne
      | err e =>
        rw [hr] at hw
        have h1 := (Prod.mk.inj hw).1
        have h2 := (Prod.mk.inj hw).2
        subst h1 h2
        refine ⟨fun e he => absurd he (by simp), fun D' he => ?_⟩
        cases he
        refine ⟨?_, rfl, ?_⟩
        · rw [hB]
          split_ifs with hD
          · exact List.drop_suffix _ _
          · exact List.suffix_refl _
        · rcases hi with ⟨i1, i2, i3⟩ | hi
          · refine .inl ⟨i1, ?_, i1.1⟩
            rw [hB, i2, List.drop_zero]
          · exact .inr ⟨N, by omega, hi⟩
      | ok v =>
        obtain ⟨k, record⟩ := v
        rw [hr] at hw
        simp only [] at hw
        obtain ⟨_, _, _, _, _, hk5, hkl⟩ := fromRaw_isRecord hr
        have hbl : buf.length = B.length - offset := by rw [hbuf, List.length_drop]
        rcases hq : handleRecord env record h with ⟨r1, h1⟩
        have hstep : r1 ≠ .panic → (∀ e, r1 = .err e → EndsAt env n ch w total e h1) ∧ (r1 = .ok () → CInv env n ch w total (N + k) h1) := by
          intro hp
          rcases hi with ⟨i1, i2, i3⟩ | hi
          · rw [i2, List.drop_zero] at hbuf
            rw [← hbuf] at i3
            obtain ⟨a1, a2⟩ := first_at (total := total) hq hch hr i3 i1
            exact ⟨a1, fun he => a2 he _⟩
          · exact record_at hkc hcl hq hp hr (by omega) hc hi
        cases r1 with
        | panic =>
          rw [Step.bind_of_panic hq] at hw
          exact absurd (Prod.mk.inj hw).1.symm hne
        | err e =>
          rw [Step.bind_of_err hq] at hw
          have h1 := (Prod.mk.inj hw).1
          have h2 := (Prod.mk.inj hw).2
          subst h1 h2
          refine ⟨fun e' he => ?_, fun D' he => absurd he (by simp)⟩
          cases he
          exact (hstep (by simp)).1 e rfl
        | ok u =>
          rw [Step.bind_of_ok hq] at hw
          have hci := (hstep (by simp)).2 rfl
          have hc1 : Calm h1.stream := by
            have := (calm_keeps env).record record h hc
            rw [hq] at this
            exact this
          split_ifs at hw with hend
          · have h1 := (Prod.mk.inj hw).1
            have h2 := (Prod.mk.inj hw).2
            subst h1 h2
            refine ⟨fun e he => absurd he (by simp), fun D' he => ?_⟩
            cases he
            exact ⟨List.nil_suffix, record_incoming hc hq, .inr ⟨N + k, by omega, hci⟩⟩
          · obtain ⟨j1, j2⟩ := records_at hkc hcl hch hB fuel (offset + k) (N + k) h1 h' r (by omega) (.inr hci) hc1 (by omega) hw hne
            refine ⟨j1, fun D' he => ?_⟩
            obtain ⟨k1, k0, k2⟩ := j2 D' he
            refine ⟨k1, by rw [k0, record_incoming hc hq], ?_⟩
            rcases k2 with k2 | ⟨N', k2, k3⟩
            · exact absurd k2.2.2 hci.1
            · exact .inr ⟨N', by omega, k3⟩

/-- The reads. -/
theorem reads_at {env : ClientEnv} {n : Int} {ch w total : Bytes} (hkc : Keyful env) (hcl : ∀ c, env.config.clientCert = some c → c.raw.length + 400 ≤ 2 ^ 24)
    (hch : ch.length < 2 ^ 26) (htot : total.length < 2 ^ 24) :
    ∀ (fuel : Nat) (D read : Bytes) (N : Nat) (h h' : ClientHandshake) (e : TlsError),
      (Awaiting n ch w h ∧ D = read ∨ CInv env n ch w total N h) → D <:+ read → Calm h.stream →
      total = read ++ h.stream.stream.incoming.flatten → N ≤ read.length * total.length →
      readLoop env fuel D h = (.err e, h') → EndsAt env n ch w total e h'
  | 0, _, _, _, _, _, _, _, _, _, _, _, hw => absurd (Prod.mk.inj hw).1 (by simp)
  | fuel + 1, D, read, N, h, h', e, hi, hD, hc, htt, hsz, hw => by
    have hmul : ∀ l, l ≤ total.length → l * total.length < 2 ^ 50 := by
      intro l hl
      calc l * total.length ≤ 2 ^ 24 * 2 ^ 24 := Nat.mul_le_mul (by omega) (by omega)
        _ < 2 ^ 50 := by norm_num
    unfold readLoop at hw
    rw [Step.bind_get] at hw
    by_cases hs : h.state = .ready
    · rw [if_pos hs] at hw
      exact absurd (Prod.mk.inj hw).1 (by simp)
    rw [if_neg hs] at hw
    rcases Step.bind_err hw with hw | ⟨rx, h1, e1, hw⟩
    · obtain ⟨s, hr, _⟩ := onStream_err hw
      unfold TlsStream.tcpRead at hr
      left; right; left
      split at hr
      · exact (Res.err.inj (Prod.mk.inj hr).1).symm
      · rename_i c cs _
        by_cases hg : c.take 2048 = []
        · rw [if_pos hg] at hr
          exact (Res.err.inj (Prod.mk.inj hr).1).symm
        · rw [if_neg hg] at hr
          exact absurd (Prod.mk.inj hr).1 (by simp)
    have hc1 : Calm h1.stream := by
      have := (calm_keeps env).read h hc
      rw [e1] at this
      exact this
    obtain ⟨s1, e1', rfl⟩ := onStream_ok e1
    obtain ⟨g1, g2, g3, g4, g5, g6⟩ := read_ok e1'
    obtain ⟨E, hE⟩ : ∃ E, E = if D = [] then [] else D ++ rx := ⟨_, rfl⟩
    rw [← hE] at hw
    obtain ⟨B, hB⟩ : ∃ B, B = if E = [] then rx else E := ⟨_, rfl⟩
    have hBD : B = D ++ rx := by
      rw [hB]
      by_cases hd : D = []
      · rw [if_pos hd] at hE
        rw [if_pos hE, hd, List.nil_append]
      · rw [if_neg hd] at hE
        rw [if_neg (by rw [hE]; simp [hd]), hE]
    have hBr : B <:+ read ++ rx := by
      rw [hBD]
      obtain ⟨pre, hpre⟩ := hD
      exact ⟨pre, by rw [← hpre, List.append_assoc]⟩
    have hrxl : 1 ≤ rx.length := List.length_pos_of_ne_nil g3
    have htt1 : total = read ++ rx ++ s1.stream.incoming.flatten := by rw [htt, g1, List.append_assoc]
    have htl : total.length = read.length + rx.length + s1.stream.incoming.flatten.length := by
      rw [htt1, List.length_append, List.length_append]
    have hBl : B.length ≤ total.length := by
      have := hBr.length_le
      rw [List.length_append] at this
      omega
    have hgrow : N + B.length ≤ (read ++ rx).length * total.length := by
      rw [List.length_append]
      calc N + B.length ≤ read.length * total.length + 1 * total.length := by omega
        _ = (read.length + 1) * total.length := by rw [Nat.add_mul]
        _ ≤ (read.length + rx.length) * total.length := Nat.mul_le_mul (by omega) (le_refl _)
    have hbig := hmul (read ++ rx).length (by rw [List.length_append]; omega)
    have hi1 : Awaiting n ch w { h with stream := s1 } ∧ 0 = 0 ∧ B <+: total ∨ CInv env n ch w total N { h with stream := s1 } := by
      rcases hi with ⟨a1, a2⟩ | hi
      · refine .inl ⟨a1.moved g4 g6 g5, rfl, ?_⟩
        rw [hBD, a2, htt1]
        exact List.prefix_append _ _
      · exact .inr (hi.moved g4 g6 g5)
    rcases Step.bind_err hw with hw | ⟨D', h2, e2, hw⟩
    · exact (records_at hkc hcl hch hB _ 0 N _ h' _ (Nat.zero_le _) hi1 hc1 (by omega) hw (by simp)).1 e rfl
    obtain ⟨j1, hin, j2⟩ := (records_at hkc hcl hch hB _ 0 N _ h2 _ (Nat.zero_le _) hi1 hc1 (by omega) e2 (by simp)).2 D' rfl
    have hin : h2.stream.stream.incoming = s1.stream.incoming := hin
    have hc2 : Calm h2.stream := by
      have := (calm_keeps env).records rx (rx.length + E.length + 1) 0 E _ hc1
      rw [e2] at this
      exact this
    have hb2 : h2.stream.buffer = [] := by
      rcases j2 with ⟨j2, _⟩ | ⟨N', _, j2⟩
      · exact j2.2.2.2.1
      · exact j2.empty
    rw [Step.bind_of_ok (flush_nothing hb2)] at hw
    rcases j2 with ⟨j2, j3, j4⟩ | ⟨N', j2, j3⟩
    · have hDr : D = read := by
        rcases hi with ⟨a1, a2⟩ | hi
        · exact a2
        · exact absurd j4 hi.1
      exact reads_at hkc hcl hch htot fuel D' (read ++ rx) 0 h2 h' e (.inl ⟨j2, by rw [j3, hBD, hDr]⟩) (j1.trans hBr) hc2 (by rw [hin, ← htt1]) (Nat.zero_le _) hw
    · exact reads_at hkc hcl hch htot fuel D' (read ++ rx) N' h2 h' e (.inr j3) (j1.trans hBr) hc2 (by rw [hin, ← htt1]) (by omega) hw

/-- Sending the ClientHello fails by itself never: without write failures it is sent or the client panics. -/
theorem hello_not_err {env : ClientEnv} {reads : List Bytes} {n : Int} {h h' : ClientHandshake} {e : TlsError}
    (hr : ((Rng.urandom reads).between 1 32 : Res TlsError (Int × Rng)) = .ok (n, h.rng)) (hk : h.privateKey = ⟨.curve25519, n⟩) (hf : h.stream.stream.failures = [])
    (hw : sendClientHello env h = (.err e, h')) : False := by
  obtain ⟨b1, b2, _⟩ := between_bounds hr
  unfold sendClientHello at hw
  rw [Step.bind_get] at hw
  rcases Step.lift_bind_err hw with ⟨h1, _⟩ | ⟨⟨random, rng2⟩, e1, hw⟩
  · exact bytes_not_err _ _ _ h1
  simp only [] at hw
  rcases Step.lift_bind_err hw with ⟨h1, _⟩ | ⟨⟨sid, rng3⟩, e2, hw⟩
  · exact bytes_not_err _ _ _ h1
  simp only [] at hw
  rw [Step.bind_modify, hk, keyShareOf_eq b1 b2] at hw
  rcases Step.lift_bind_err hw with ⟨h1, _⟩ | ⟨kse, e3, hw⟩
  · cases h1
  cases e3
  rw [C35_rfc_encoding random sid _ _ (by rw [List.length_reverse]; exact publicShare_length n), List.reverse_reverse] at hw
  rcases Step.lift_bind_err hw with ⟨h1, _⟩ | ⟨body, e4, hw⟩
  · cases h1
  rw [Step.bind_modify] at hw
  obtain ⟨s, hs, _⟩ := onStream_err hw
  unfold TlsStream.tcpWrite Socket.write at hs
  simp only [hf] at hs
  exact absurd (Prod.mk.inj hs).1 (by simp)

end ClientProof

/-- The client gives up with the error `e` of its own: not because of an alert it received, and not because the connection broke. -/
def ClientOwnError (env : ClientEnv) (reads incoming : List Bytes) (e : TlsError) : Prop :=
  ¬ NotAnswered e ∧ ∃ h0 h, ClientHandshake.new (TlsStream.new ⟨incoming, [], []⟩) reads = .ok h0 ∧ ClientHandshake.doHandshake env h0 = (.err e, h)

/-- What a client that sent the offer `ch` and then stopped with the error `e` has written. -/
inductive GaveUp (env : ClientEnv) (n : Int) (ch incoming : Bytes) (e : TlsError) : Bytes → Prop where
  /-- There is no ServerHello that answers the offer: no keys are known, the alert is in the clear. -/
  | plain : (¬ ∃ x, HelloAccepted n ch incoming x) → GaveUp env n ch incoming e (Tls13.plainRecord 22#8 ch ++ Tls13.plainRecord 21#8 (alertContent e))
  /-- The client has answered nothing yet: the alert is its first record under its handshake traffic key. -/
  | handshake (x : Params) (alert : Bytes) : HelloAccepted n ch incoming x →
      Tls13.Protected (aead x.c) (x.sess.key .client) (x.sess.iv .client) 0 21#8 (alertContent e) alert →
      GaveUp env n ch incoming e (Tls13.plainRecord 22#8 ch ++ alert)
  /-- The client has sent its whole flight, behind a flight of the server that it accepted: the alert is its first record under its application traffic key. -/
  | finished (x : Params) (requests : List Bytes) (cert : Certificate) (shown : Bytes) (auth : List Bytes) (cwire alert : Bytes) : HelloAccepted n ch incoming x →
      ServerShown env x requests cert shown →
      ClientAnswer env x (x.hellos ++ shown ++ x.sess.finished .server (x.hellos ++ shown)) requests.getLast? auth →
      Tls13.Sent (aead x.c) (x.sess.key .client) (x.sess.iv .client) 0
        (auth ++ [x.sess.finished .client (x.hellos ++ shown ++ x.sess.finished .server (x.hellos ++ shown) ++ auth.flatten)]) cwire →
      Tls13.Protected (aead x.c) (x.sess.appKey (x.hellos ++ shown ++ x.sess.finished .server (x.hellos ++ shown)) .client)
        (x.sess.appIv (x.hellos ++ shown ++ x.sess.finished .server (x.hellos ++ shown)) .client) 0 21#8 (alertContent e) alert →
      GaveUp env n ch incoming e (Tls13.plainRecord 22#8 ch ++ cwire ++ alert)

namespace ClientProof
open ClientHandshake RecProof NegProof

/-- The client's report of an error, once the alert is written. -/
theorem connect_alert {env : ClientEnv} {reads incoming : List Bytes} {h0 h : ClientHandshake} {s : TlsStream} {e : TlsError} (he : ¬ NotAnswered e)
    (h1 : ClientHandshake.new (TlsStream.new ⟨incoming, [], []⟩) reads = .ok h0) (h2 : doHandshake env h0 = (.err e, h)) (h3 : h.stream.writeAlert e = (.ok (), s)) :
    ClientConnection.connect env reads ⟨incoming, [], []⟩ = (.err e, some { h with stream := s }) := by
  unfold ClientConnection.connect
  rw [h1]
  simp only []
  have hlt : e.discr < TlsError.notOfficial.discr := by
    by_contra hn
    exact he ((AlertProof.notAnswered_iff e).2 hn)
  have hrep : ServerHandshake.reported e = e := by
    cases e <;> first | rfl | exact absurd (.inl ⟨_, rfl⟩) he
  have : doHandshakeWithError env h0 = (.err e, { h with stream := s }) := by
    unfold doHandshakeWithError
    rw [h2]
    simp only []
    rw [if_pos hlt]
    have hon : onStream (fun s => s.writeAlert e) h = (.ok (), { h with stream := s }) := by
      unfold onStream
      simp only [h3]
    rw [Step.bind_of_ok hon, hrep]
    rfl
  rw [this]

theorem plain_alert {s : TlsStream} (e : TlsError) (hp : s.protection = none) (hf : s.stream.failures = []) :
    s.writeAlert e = (.ok (), { s with stream := ⟨s.stream.incoming, [], s.stream.written ++ Tls13.plainRecord 21#8 (alertContent e)⟩ }) := by
  unfold TlsStream.writeAlert TlsStream.protectRecord
  rw [hp]
  simp only [Socket.writeAll, hf, ServerProof.new_bytes, alertContent]
  rw [if_neg (by simp [Tls13.plainRecord]), hp]
  rfl

end ClientProof

open ClientProof in
/-- C105: a client that gives up with an error of its own reports it, and its last record is the alert for it, protected with the keys and the sequence number
that the server expects from it: in the clear before a ServerHello it takes, as its first protected record after one, and as its first record under the
application key after its own Finished. -/
theorem C105_client_alert (env : ClientEnv) (reads incoming : List Bytes) (e : TlsError)
    (hkey : ∀ c, env.config.clientCert = some c → ∃ key, env.config.clientKey = some key)
    (hcert : ∀ c, env.config.clientCert = some c → c.raw.length + 400 ≤ 2 ^ 24) (hname : ∀ n, env.config.serverName = some n → n.length < 2 ^ 24)
    (hin : incoming.flatten.length < 2 ^ 24) (he : ClientOwnError env reads incoming e) :
    ∃ h n ch, ClientConnection.connect env reads ⟨incoming, [], []⟩ = (.err e, some h) ∧ Offered env reads n ch ∧
      GaveUp env n ch incoming.flatten e h.stream.stream.written := by
  obtain ⟨hna, h0, h1, hnew, hdo⟩ := he
  obtain ⟨n, rng, hb, hh0⟩ : ∃ (n : Int) (rng : Rng), ((Rng.urandom reads).between 1 32 : Res TlsError (Int × Rng)) = .ok (n, rng) ∧
      h0 = ClientHandshake.mk (TlsStream.new ⟨incoming, [], []⟩) .serverHello none none rng none ⟨.curve25519, n⟩ none none none [] := by
    unfold ClientHandshake.new at hnew
    cases hb : ((Rng.urandom reads).between 1 32 : Res TlsError (Int × Rng)) with
    | err e => rw [hb] at hnew; cases hnew
    | panic => rw [hb] at hnew; cases hnew
    | ok v =>
      obtain ⟨n, rng⟩ := v
      rw [hb] at hnew
      exact ⟨n, rng, rfl, (Res.ok.inj hnew).symm⟩
  have hdo' := hdo
  unfold ClientHandshake.doHandshake at hdo
  rcases Step.bind_err hdo with hdo | ⟨u, h3, e3, hdo⟩
  · exact absurd hdo fun hdo => hello_not_err (reads := reads) (n := n) (by rw [hh0]; exact hb) (by rw [hh0]) (by rw [hh0]; rfl) hdo
  obtain ⟨ch, k, g1, g2, g3, g4, g5, g6, g7, g8, g9, g10, g11, g12, g13, g14⟩ := hello_ok (reads := reads) (n := n) e3 (by rw [hh0]; exact hb) (by rw [hh0]) hname
    (by rw [hh0]; rfl)
  have hc3 : Calm h3.stream := by
    have := (calm_keeps env).clientHello h0 (by rw [hh0]; rfl)
    rw [e3] at this
    exact this
  have hc1 : Calm h1.stream := by
    have := (calm_keeps env).reads ((h3.stream.stream.incoming.map List.length).sum + h3.stream.stream.incoming.length + 2) [] h3 hc3
    rw [hdo] at this
    exact this
  have hwr : h3.stream.stream.written = Tls13.plainRecord 22#8 ch := by
    have := g3
    rw [hh0, g4 (by rw [hh0]; rfl), List.take_length] at this
    unfold out at this
    rw [g10] at this
    simpa [TlsStream.new] using this
  have hend := reads_at (n := n) (ch := ch) (w := Tls13.plainRecord 22#8 ch) (total := incoming.flatten) hkey hcert g2 hin _ [] [] 0 h3 h1 e
    (.inl ⟨⟨by rw [g8, hh0], by rw [g9, hh0]; rfl, hwr, g10, g5, by rw [g7, hh0], by rw [g6, hh0], by rw [g12, hh0], by rw [g13, hh0], g14⟩, rfl⟩)
    List.nil_suffix hc3 (by rw [g11, hh0]; rfl) (Nat.zero_le _) hdo
  rcases hend with hend | ⟨hno, p1, p2, p3⟩ | ⟨x, hx1, hx, hat⟩
  · exact absurd hend hna
  · refine ⟨_, n, ch, connect_alert hna hnew hdo' (plain_alert e p1 hc1), g1, ?_⟩
    show GaveUp _ _ _ _ _ (h1.stream.stream.written ++ _)
    rw [p2]
    exact .plain hno
  · have key : Keyed x (Tls13.plainRecord 22#8 ch) h1 ∨ h1.stream.buffer = [] ∧ ∃ seen, Done env x (Tls13.plainRecord 22#8 ch) seen h1.stream h1.logged := by
      rcases hat with hat | ⟨hat, _⟩ | ⟨a1, _, a2⟩
      · exact .inl hat
      · exact .inl hat
      · exact .inr ⟨a1, a2⟩
    rcases key with ⟨k1, k2, p, k3, k4, k5⟩ | ⟨k1, seen, requests, cert, shown, auth, cwire, ignored, p, d1, d2, d3, d4, d5, d6, d7, d8, d9⟩
    · obtain ⟨a, s', f1, f2, f3⟩ := AlertProof.alert_sealed (cs := x.cs) (e := e) (seq := 0) k3 (by rw [k4]; exact hx.cipher) (by rw [k5]; exact hsKey_sizes _ _ _)
        (by rw [k5]; rfl) (by omega) hc1
      refine ⟨_, n, ch, connect_alert hna hnew hdo' f1, g1, ?_⟩
      show GaveUp _ _ _ _ _ s'.stream.written
      rw [f2, k1]
      rw [k4, k5] at f3
      exact .handshake x a hx1 f3
    · obtain ⟨a, s', f1, f2, f3⟩ := AlertProof.alert_sealed (cs := x.cs) (e := e) (seq := 0) d6 (by rw [d7]; exact hx.cipher) (by rw [d8]; exact EarlyProof.appKey_sizes _ _ _)
        (by rw [d8]; rfl) (by omega) hc1
      refine ⟨_, n, ch, connect_alert hna hnew hdo' f1, g1, ?_⟩
      show GaveUp _ _ _ _ _ s'.stream.written
      unfold out at d5
      rw [k1, List.append_nil] at d5
      rw [f2, d5]
      rw [d7, d8] at f3
      exact .finished x requests cert shown auth cwire a hx1 d1 d3 d4 f3

namespace ClientProof
open ClientHandshake RecProof

/-- A server that leaves out its EncryptedExtensions: the client gives up with `UnexpectedMessage`. -/
theorem skips_extensions {env : ClientEnv} {reads : List Bytes} {n : Int} {ch sh shRec wire : Bytes} {x : Params} {m : Msg} (ho : Offered env reads n ch)
    (ha : ServerAnswered x n ch sh) (hrec : Tls13.IsRecord 22#8 sh shRec) (hl : x.hellos.length < 2 ^ 53) (hm : m.1 ≠ .encryptedExtensions)
    (hw : x.Ok → Tls13.Protected (aead x.c) (x.sess.key .server) (x.sess.iv .server) 0 22#8 m.raw wire) (l1 : shRec.length ≤ 2048) (l2 : wire.length ≤ 2048) :
    ClientOwnError env reads [shRec, wire] .unexpectedMessage := by
  refine ⟨by unfold NotAnswered; simp, ?_⟩
  obtain ⟨g, rng', random, hb, hsend⟩ := hello_of ho
  obtain ⟨k0, hk0⟩ : ∃ k0 : ClientHandshake, k0 = { first n g with
        rng := rng', clientHelloRandom := some random, clientHelloBytes := some ch
        stream := { TlsStream.new ⟨[], [], []⟩ with stream := ⟨[], [], Tls13.plainRecord 22#8 ch⟩ } } := ⟨_, rfl⟩
  rw [← hk0] at hsend
  have hst : k0.state = .serverHello := by rw [hk0]; rfl
  have hrec' := hrec
  obtain ⟨v1, v2, hshl, he⟩ := hrec
  have hraw := RecProof.fromRaw_header .handshake v1 v2 sh [] hshl
  rw [List.append_nil] at hraw
  rw [RecProof.beBytes2] at he
  obtain ⟨record, hrecord⟩ : ∃ record : Record, record = ⟨.handshake, v1.toNat * 256 + v2.toNat, sh.length,
    [RecordType.handshake.code, v1, v2, BitVec.ofNat 8 (sh.length / 256), BitVec.ofNat 8 sh.length], sh⟩ := ⟨_, rfl⟩
  rw [← hrecord] at hraw
  have hfrag : record.fraqment = sh := by rw [hrecord]
  obtain ⟨p, kl, lg, e1, hx, hprot⟩ := serverHello_of (env := env) (h := k0) (record := record) (random := random) (by rw [hfrag]; exact ha) (by rw [hk0]) (by rw [hk0])
    hl (by rw [hk0]; rfl)
  have hw := hw hx
  obtain ⟨k1, hk1⟩ : ∃ k1 : ClientHandshake, k1 = { k0 with
        stream := k0.stream.setProtection (some p), tshash := some (ts x.t x.hellos), state := .encryptedExtensions, keylog := kl, logged := lg } := ⟨_, rfl⟩
  rw [← hk1] at e1
  have hh : handleRecord env record k0 = (.ok (), k1) := by
    unfold handleRecord
    rw [Step.bind_get, hst, hrecord]
    simp only []
    rw [if_neg (by decide), ← hrecord]
    exact e1
  obtain ⟨r, p', r1, r2, r3⟩ := encrypted_of (env := env) (h := k1) (ms := [m]) hx (by rw [hk1]; rfl) hprot (by omega) (by simpa using hw) (by rw [hk1]; simp) (by rw [hk1]; simp)
  have hbad : told env [m] { k1 with stream := k1.stream.setProtection (some p') } = (.err .unexpectedMessage, { k1 with stream := k1.stream.setProtection (some p') }) := by
    have : handleMessage env (Msg.hs m) { k1 with stream := k1.stream.setProtection (some p') } =
        (.err .unexpectedMessage, { k1 with stream := k1.stream.setProtection (some p') }) := by
      unfold handleMessage
      rw [Step.bind_get]
      simp only [hk1]
      unfold handleEncryptedExtension
      rw [if_pos (show (Msg.hs m).handshakeType ≠ _ from hm)]
      rfl
    unfold told
    exact Step.bind_of_err this
  have hfeed : feed env [shRec, wire] k0 = (.err .unexpectedMessage, { k1 with stream := k1.stream.setProtection (some p') }) := by
    rw [he]
    refine (feed_of hraw hh).trans ?_
    unfold feed
    rw [Step.bind_lift_ok r1]
    exact Step.bind_of_err (r3.trans hbad)
  have hno : ∀ w ∈ [shRec, wire], NoAlert w := by
    intro w hwm
    simp only [List.mem_cons, List.not_mem_nil, or_false] at hwm
    rcases hwm with rfl | rfl
    · exact ⟨22#8, sh, by decide, hrec'⟩
    · obtain ⟨t, c, ht, hr⟩ := flight_whole hx (.cons _ _ _ _ _ hw (.nil _)) (by simp) w List.mem_cons_self
      exact ⟨t, c, by rcases ht with rfl | rfl <;> decide, hr⟩
  have o := run_outcome env hsend (records := [shRec, wire]) (reads := [shRec, wire]) (fun w hwm => (hno w hwm).whole)
    (Tls13.delivers_single (by
      intro w hwm
      simp only [List.mem_cons, List.not_mem_nil, or_false] at hwm
      rcases hwm with rfl | rfl
      · exact l1
      · exact l2)).pieces (fun a v b hab _ _ _ => (hno v (by rw [← hab]; simp)).not_alert)
  rw [hfeed] at o
  obtain ⟨o1, _⟩ := o
  refine ⟨withReads [shRec, wire] (first n g), (doHandshake env (withReads [shRec, wire] (first n g))).2, ?_, ?_⟩
  · unfold ClientHandshake.new
    rw [hb]
    rfl
  · exact Prod.ext o1 rfl

/-- A record protected under the server's handshake keys. -/
theorem server_protects {x : Params} (hx : x.Ok) (t : Byte) (c : Bytes) (hc : c.length < 2 ^ 15) :
    ∃ w, Tls13.Protected (aead x.c) (x.sess.key .server) (x.sess.iv .server) 0 t c w ∧ w.length = c.length + 22 := by
  have hk := hsKey_sizes x .server 0
  obtain ⟨ct, tag, he, hl1, hl2, _⟩ := C15_aead_round_trip x.cs x.c hx.cipher (x.hsKey .server 0).key (Tls13.nonce (x.hsKey .server 0).iv 0)
    (c ++ [t] ++ zeros 0) (Tls13.protectedHeader (c.length + 1 + 0)) (suiteKeys hk _) (by simp [zeros, Tls13.protectedHeader, beBytes_length]; omega)
  refine ⟨_, ⟨ct, tag, 0, by omega, rfl, ?_⟩, ?_⟩
  · unfold FlowProof.aead
    have he' : x.c.encrypt (x.sess.key .server) (Tls13.nonce (x.sess.iv .server) 0) (c ++ [t] ++ zeros 0) (Tls13.protectedHeader (c.length + 1 + 0)) = .ok (ct, tag) := he
    rw [he']
  · simp only [List.length_append, hl1, hl2, Tls13.protectedHeader, beBytes_length, List.length_cons, List.length_nil, zeros_length]
    omega

end ClientProof

/-- The client of the repository's example (with a certificate and its key) meets a server that answers its hello and then sends a Finished message at once:
the hypotheses of C105 hold, with a ServerHello that the client accepts. -/
theorem C105_met : ∃ (incoming : List Bytes) (x : Params) (n : Int) (ch : Bytes),
    (∀ c, (exampleClient (some (ascii "anothertls.local"))).config.clientCert = some c →
      (∃ key, (exampleClient (some (ascii "anothertls.local"))).config.clientKey = some key) ∧ c.raw.length + 400 ≤ 2 ^ 24) ∧
    incoming.flatten.length < 2 ^ 24 ∧ Offered (exampleClient (some (ascii "anothertls.local"))) [zeros 100, zeros 100, zeros 100] n ch ∧
    HelloAccepted n ch incoming.flatten x ∧
    ClientOwnError (exampleClient (some (ascii "anothertls.local"))) [zeros 100, zeros 100, zeros 100] incoming .unexpectedMessage := by
  obtain ⟨env, henv⟩ : ∃ env, env = exampleClient (some (ascii "anothertls.local")) := ⟨_, rfl⟩
  obtain ⟨r, s, shRec, records, str, h, h1, h2, h3⟩ := C83_any_name (ascii "anothertls.local") (by decide)
  have hlen := RfcProof.hello_length [] r s (sid := zeros 32) (by simp [zeros])
  obtain ⟨sh, hsh⟩ : ∃ sh, sh = (rfcServer [] r s).hello (zeros 32) := ⟨_, rfl⟩
  have hrec := h2.hello
  rw [← hsh] at hrec hlen
  rw [← henv] at h3 ⊢
  have hrl : shRec.length = 127 := by
    obtain ⟨v1, v2, _, rfl⟩ := hrec
    simp only [List.length_append, beBytes_length, List.length_cons, List.length_nil]
    omega
  have hname : ∀ a, env.config.serverName = some a → a.length < 2 ^ 24 := by
    rw [henv]
    intro a ha
    cases ha
    decide
  obtain ⟨x, n, ch, ho, ha⟩ := AnswerProof.connect_first (record := shRec) (more := []) (later := records) hname (by simp) (by simp; omega) hrec h3
  have hchl : ch.length < 2 ^ 26 := by
    obtain ⟨_, _, _, random, sid, _, _, _, l1, l2, _, _, rfl⟩ := id ho
    have := ClientProof.offer_le random sid (publicShare n) env.config.serverName l1 l2 (publicShare_length n) hname
    simp only [Tls13.handshakeMessage, List.length_append, beBytes_length, List.length_cons, List.length_nil]
    omega
  have hxl : x.hellos.length < 2 ^ 53 := by
    obtain ⟨_, _, _, _, _, _, _, _, _, _, _, _, hh⟩ := ha
    rw [hh, List.length_append]
    omega
  obtain ⟨w, hw, hwl⟩ : ∃ w, (x.Ok → Tls13.Protected (aead x.c) (x.sess.key .server) (x.sess.iv .server) 0 22#8
      (ClientProof.Msg.raw (.finished, zeros 32)) w) ∧ w.length ≤ 2048 := by
    by_cases hx : x.Ok
    · obtain ⟨w, g1, g2⟩ := ClientProof.server_protects hx 22#8 (ClientProof.Msg.raw (.finished, zeros 32)) (by decide)
      exact ⟨w, fun _ => g1, by rw [g2]; decide⟩
    · exact ⟨[], fun h => absurd h hx, by simp⟩
  refine ⟨[shRec, w], x, n, ch, ?_, ?_, ho, ⟨sh, shRec, hrec, by simp, ha⟩, ClientProof.skips_extensions ho ha hrec hxl (by simp) hw (by omega) hwl⟩
  · rw [henv]
    intro c hc
    obtain rfl := Option.some.inj hc
    exact ⟨⟨_, rfl⟩, by decide +kernel⟩
  · simp only [List.flatten_cons, List.flatten_nil, List.append_nil, List.length_append]
    omega

end ATLS
