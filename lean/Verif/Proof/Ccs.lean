import Verif.Proof.Deliver
import Verif.Proof.Pres
/-
change_cipher_spec records after the first record.
-/
namespace ATLS.ServerProof
open ATLS ATLS.Model ATLS.Spec ServerHandshake FlowProof

/-- The ClientHello was handled. -/
def Begun (h : ServerHandshake) : Prop := h.state ≠ .clientHello

namespace Begun

theorem mod {g : ServerHandshake → ServerHandshake} (h : ∀ h, (g h).state = h.state) : Step.Pres Begun (Step.modify g : M Unit) :=
  fun s hs => by unfold Begun; rw [show (Step.modify g s : Res TlsError Unit × _).2 = g s from rfl, h]; exact hs

theorem stream {α : Type} (f : TlsStream → Res TlsError α × TlsStream) : Step.Pres Begun (onStream f) := fun _ h => h
theorem state {s : ServerHsState} (h : s ≠ .clientHello) : Step.Pres Begun (setState s) := fun _ _ => h
theorem tshash : Step.Pres Begun getTshash := fun _ h => h
theorem protection : Step.Pres Begun getProtection := fun _ h => h
theorem setProtection (p : Option RecordPayloadProtection) : Step.Pres Begun (ServerHandshake.setProtection p) := fun _ h => h
theorem update (b : Bytes) : Step.Pres Begun (updateTshash b) := Step.Pres.bind tshash fun _ => mod fun _ => rfl

theorem log2 (p : RecordPayloadProtection) : Step.Pres Begun (logApplicationSecrets p) := by
  intro h hs
  unfold logApplicationSecrets
  split
  · exact hs
  · exact hs

variable {env : ServerEnv}

theorem certificate (r : Record) : Step.Pres Begun (handleClientCertificate env r) := by
  unfold handleClientCertificate
  pres
  all_goals first
    | exact tshash
    | exact update _
    | exact state (by simp)
    | exact mod fun _ => rfl

theorem certificateVerify (r : Record) : Step.Pres Begun (handleClientCertificateVerify r) := by
  unfold handleClientCertificateVerify
  pres
  all_goals first
    | exact tshash
    | exact update _
    | exact state (by simp)

theorem finish (r : Record) : Step.Pres Begun (handleClientFinish r) := by
  unfold handleClientFinish
  pres
  all_goals first
    | exact tshash
    | exact protection
    | exact update _
    | exact state (by simp)
    | exact setProtection _
    | exact log2 _

theorem decrypt (r : Record) : Step.Pres Begun (decryptRecord r) := Step.Pres.bind protection fun _ _ hs => hs

theorem encrypted (r : Record) : Step.Pres Begun (handleEncryptedRecord env r) := by
  unfold handleEncryptedRecord
  pres
  all_goals first
    | exact decrypt _
    | exact certificate _
    | exact certificateVerify _
    | exact finish _

end Begun

theorem flight_begun {env : ServerEnv} {t : TsHash} {h h' : ServerHandshake} (hw : sendFlight env t h = (.ok (), h')) : Begun h' := by
  unfold sendFlight at hw
  sbind hw with ⟨_, h1, _, hw⟩
  sbind hw with ⟨_, h2, _, hw⟩
  sbind hw with ⟨_, h3, _, hw⟩
  slift hw with ⟨_, _, hw⟩
  sbind hw with ⟨_, h4, _, hw⟩
  sbind hw with ⟨_, h5, _, hw⟩
  slift hw with ⟨_, _, hw⟩
  sbind hw with ⟨_, h6, _, hw⟩
  sbind hw with ⟨_, h7, e, hw⟩
  have e := Step.modify_ok.1 e
  have hw := Step.modify_ok.1 hw
  subst hw
  subst e
  unfold Begun
  simp only []
  split_ifs <;> simp

theorem hello_begun {env : ServerEnv} {r : Record} {h h' : ServerHandshake} (hw : handleClientHello env r h = (.ok (), h')) : Begun h' := by
  unfold handleClientHello at hw
  slift hw with ⟨hs, _, hw⟩
  by_cases hty : hs.handshakeType ≠ .clientHello
  · rw [if_pos hty] at hw; exact absurd hw Step.throw_ok
  rw [if_neg hty] at hw
  slift hw with ⟨ch, _, hw⟩
  rw [Step.bind_get] at hw
  slift hw with ⟨⟨sh, pk, rng⟩, _, hw⟩
  simp only [] at hw
  rw [Step.bind_modify] at hw
  slift hw with ⟨t, _, hw⟩
  slift hw with ⟨b, _, hw⟩
  sbind hw with ⟨_, h1, _, hw⟩
  sbind hw with ⟨_, h2, _, hw⟩
  slift hw with ⟨_, _, hw⟩
  slift hw with ⟨_, _, hw⟩
  slift hw with ⟨_, _, hw⟩
  slift hw with ⟨_, _, hw⟩
  sbind hw with ⟨_, h3, _, hw⟩
  sbind hw with ⟨_, h4, _, hw⟩
  exact flight_begun hw

/-- After the first record the ClientHello was handled. -/
theorem record_begun {env : ServerEnv} {r : Record} {h h' : ServerHandshake} (hw : handleRecord env r h = (.ok (), h')) : Begun h' := by
  unfold handleRecord at hw
  rw [Step.bind_get] at hw
  cases hc : r.contentType with
  | changeCipherSpec =>
    rw [hc] at hw
    simp only [] at hw
    by_cases hs : h.state = .clientHello
    · rw [if_pos hs] at hw; exact absurd hw Step.throw_ok
    · rw [if_neg hs] at hw
      rw [(Step.pure_ok.1 hw).2]
      exact hs
  | alert =>
    rw [hc] at hw
    simp only [] at hw
    slift hw with ⟨_, _, hw⟩
    exact absurd hw Step.throw_ok
  | _ =>
    rw [hc] at hw
    simp only [] at hw
    cases hs : h.state with
    | clientHello =>
      rw [hs] at hw
      simp only [] at hw
      first
        | (rw [if_pos (by decide)] at hw; exact absurd hw Step.throw_ok)
        | (rw [if_neg (by decide)] at hw; exact hello_begun hw)
    | ready =>
      rw [hs] at hw
      rw [(Step.pure_ok.1 hw).2]
      unfold Begun
      rw [hs]
      simp
    | _ =>
      rw [hs] at hw
      have := Begun.encrypted (env := env) r h (by unfold Begun; rw [hs]; simp)
      simp only [] at hw
      rw [hw] at this
      exact this

/-- A change_cipher_spec record after the first record does nothing. -/
theorem ccs_record (env : ServerEnv) {w c : Bytes} (hw : Tls13.IsRecord 20#8 c w) {h : ServerHandshake} (hs : Begun h) :
    ∃ r, Record.fromRaw w = .ok (w.length, r) ∧ handleRecord env r h = (.ok (), h) := by
  obtain ⟨v1, v2, hl, rfl⟩ := hw
  have := RecProof.fromRaw_header .changeCipherSpec v1 v2 c [] hl
  refine ⟨⟨.changeCipherSpec, v1.toNat * 256 + v2.toNat, c.length, [20#8, v1, v2, BitVec.ofNat 8 (c.length / 256), BitVec.ofNat 8 c.length], c⟩, ?_, ?_⟩
  · rw [List.append_nil] at this
    rw [RecProof.beBytes2]
    have hlen : ([20#8, v1, v2] ++ [BitVec.ofNat 8 (c.length / 256), BitVec.ofNat 8 c.length] ++ c).length = 5 + c.length := by simp; omega
    rw [hlen]
    exact this
  · unfold handleRecord
    rw [Step.bind_get]
    simp only []
    rw [if_neg hs]
    rfl

theorem feed_ccs (env : ServerEnv) {l l' : List Bytes} (hi : Tls13.Inserted (fun w => ∃ c, Tls13.IsRecord 20#8 c w) l l') :
    ∀ h : ServerHandshake, Begun h → feed env l' h = feed env l h := by
  induction hi with
  | nil => intro h _; rfl
  | keep w l l' _ ih =>
    intro h hb
    rw [feed, feed, Step.bind_eq, Step.bind_eq]
    rcases Record.fromRaw w with ⟨n, r⟩ | e | _
    · simp only [Step.lift]
      rw [Step.bind_eq, Step.bind_eq]
      rcases hh : handleRecord env r h with ⟨_ | _ | _, h'⟩
      · simp only []
        exact ih h' (record_begun hh)
      · rfl
      · rfl
    · rfl
    · rfl
  | add w l l' hw _ ih =>
    intro h hb
    obtain ⟨c, hc⟩ := hw
    obtain ⟨r, h1, h2⟩ := ccs_record env hc hb
    rw [feed, Step.bind_lift_ok h1]
    exact (Step.bind_of_ok h2).trans (ih h hb)

theorem feed_ccs_first (env : ServerEnv) {l l' : List Bytes} (hi : Tls13.Inserted (fun w => ∃ c, Tls13.IsRecord 20#8 c w) l l') (w : Bytes) (h : ServerHandshake) :
    feed env (w :: l') h = feed env (w :: l) h := by
  rw [feed, feed, Step.bind_eq, Step.bind_eq]
  rcases Record.fromRaw w with ⟨n, r⟩ | e | _
  · simp only [Step.lift]
    rw [Step.bind_eq, Step.bind_eq]
    rcases hh : handleRecord env r h with ⟨_ | _ | _, h'⟩
    · simp only []
      exact feed_ccs env hi h' (record_begun hh)
    · rfl
    · rfl
  · rfl
  · rfl

end ATLS.ServerProof

namespace ATLS.ClientProof
open ATLS ATLS.Model ATLS.Spec ClientHandshake FlowProof

/-- The ServerHello was handled. -/
def Begun (h : ClientHandshake) : Prop := h.state ≠ .serverHello

namespace Begun

theorem mod {g : ClientHandshake → ClientHandshake} (h : ∀ h, (g h).state = h.state) : Step.Pres Begun (Step.modify g : M Unit) :=
  fun s hs => by unfold Begun; rw [show (Step.modify g s : Res TlsError Unit × _).2 = g s from rfl, h]; exact hs

theorem stream {α : Type} (f : TlsStream → Res TlsError α × TlsStream) : Step.Pres Begun (onStream f) := fun _ h => h
theorem write (t : RecordType) (data : Bytes) : Step.Pres Begun (writeRecord t data) := fun _ h => h
theorem state {s : ClientHsState} (h : s ≠ .serverHello) : Step.Pres Begun (setState s) := fun _ _ => h
theorem tshash : Step.Pres Begun getTshash := fun _ h => h
theorem protection : Step.Pres Begun getProtection := fun _ h => h
theorem setProtection (p : Option RecordPayloadProtection) : Step.Pres Begun (ClientHandshake.setProtection p) := fun _ h => h
theorem update (b : Bytes) : Step.Pres Begun (updateTshash b) := Step.Pres.bind tshash fun _ => mod fun _ => rfl

theorem log2 (p : RecordPayloadProtection) : Step.Pres Begun (logApplicationSecrets p) := by
  intro h hs
  unfold logApplicationSecrets
  split
  · exact hs
  · exact hs

variable {env : ClientEnv}

theorem extensions (m : Handshake) : Step.Pres Begun (handleEncryptedExtension m) := by
  unfold handleEncryptedExtension
  pres
  all_goals first
    | exact update _
    | exact state (by simp)

theorem certificate (m : Handshake) : Step.Pres Begun (handleServerCertificate env m) := by
  unfold handleServerCertificate
  pres
  all_goals first
    | exact update _
    | exact state (by simp)
    | exact mod fun _ => rfl

theorem certificateVerify (m : Handshake) : Step.Pres Begun (handleServerCertificateVerify m) := by
  unfold handleServerCertificateVerify
  pres
  all_goals first
    | exact tshash
    | exact update _
    | exact state (by simp)

theorem sendVerify : Step.Pres Begun (sendCertificateVerify env) := by
  unfold sendCertificateVerify
  pres
  all_goals first
    | exact tshash
    | exact update _
    | exact write _ _

theorem request : Step.Pres Begun (handleCertificateRequest env) := by
  unfold handleCertificateRequest
  pres
  all_goals first
    | exact update _
    | exact write _ _
    | exact sendVerify
    | exact state (by simp)

theorem answer : Step.Pres Begun (answerRequest env) := by
  unfold answerRequest
  pres
  exact request

theorem finish (m : Handshake) : Step.Pres Begun (handleServerFinish env m) := by
  unfold handleServerFinish
  pres
  all_goals first
    | exact tshash
    | exact protection
    | exact update _
    | exact answer
    | exact write _ _
    | exact stream _
    | exact state (by simp)
    | exact setProtection _
    | exact log2 _

theorem message (m : Handshake) : Step.Pres Begun (handleMessage env m) := by
  unfold handleMessage
  pres
  all_goals first
    | exact extensions _
    | exact update _
    | exact state (by simp)
    | exact certificate _
    | exact certificateVerify _
    | exact finish _
    | exact mod fun _ => rfl

theorem messages : ∀ (fuel : Nat) (rest : Bytes), Step.Pres Begun (messagesLoop env fuel rest) := by
  intro fuel
  induction fuel with
  | zero => intro rest; unfold messagesLoop; pres
  | succ n ih =>
    intro rest
    unfold messagesLoop
    pres
    · exact message _
    · exact ih _

theorem decrypt (r : Record) : Step.Pres Begun (decryptRecord r) := Step.Pres.bind protection fun _ _ hs => hs

theorem encrypted (r : Record) : Step.Pres Begun (handleEncryptedRecord env r) := by
  unfold handleEncryptedRecord
  pres
  all_goals first
    | exact decrypt _
    | exact messages _ _

end Begun

theorem hello_begun {env : ClientEnv} {r : Record} {h h' : ClientHandshake} (hw : handleServerHello env r h = (.ok (), h')) : Begun h' := by
  unfold handleServerHello at hw
  slift hw with ⟨hs, _, hw⟩
  by_cases hty : hs.handshakeType ≠ .serverHello
  · rw [if_pos hty] at hw; exact absurd hw Step.throw_ok
  rw [if_neg hty] at hw
  slift hw with ⟨sh, _, hw⟩
  slift hw with ⟨t, _, hw⟩
  rw [Step.bind_get] at hw
  slift hw with ⟨_, _, hw⟩
  slift hw with ⟨_, _, hw⟩
  slift hw with ⟨_, _, hw⟩
  slift hw with ⟨_, _, hw⟩
  slift hw with ⟨_, _, hw⟩
  sbind hw with ⟨_, h1, _, hw⟩
  sbind hw with ⟨_, h2, _, hw⟩
  rw [Step.bind_modify] at hw
  have hw := Step.modify_ok.1 hw
  subst hw
  unfold Begun
  simp

/-- After the first record the ServerHello was handled. -/
theorem record_begun {env : ClientEnv} {r : Record} {h h' : ClientHandshake} (hw : handleRecord env r h = (.ok (), h')) : Begun h' := by
  unfold handleRecord at hw
  rw [Step.bind_get] at hw
  cases hc : r.contentType with
  | changeCipherSpec =>
    rw [hc] at hw
    simp only [] at hw
    by_cases hs : h.state = .serverHello
    · rw [if_pos hs] at hw; exact absurd hw Step.throw_ok
    · rw [if_neg hs] at hw
      rw [(Step.pure_ok.1 hw).2]
      exact hs
  | alert =>
    rw [hc] at hw
    simp only [] at hw
    slift hw with ⟨_, _, hw⟩
    exact absurd hw Step.throw_ok
  | _ =>
    rw [hc] at hw
    simp only [] at hw
    cases hs : h.state with
    | serverHello =>
      rw [hs] at hw
      simp only [] at hw
      first
        | (rw [if_pos (by decide)] at hw; exact absurd hw Step.throw_ok)
        | (rw [if_neg (by decide)] at hw; exact hello_begun hw)
    | ready =>
      rw [hs] at hw
      rw [(Step.pure_ok.1 hw).2]
      unfold Begun
      rw [hs]
      simp
    | _ =>
      rw [hs] at hw
      have := Begun.encrypted (env := env) r h (by unfold Begun; rw [hs]; simp)
      simp only [] at hw
      rw [hw] at this
      exact this

/-- A change_cipher_spec record after the first record does nothing. -/
theorem ccs_record (env : ClientEnv) {w c : Bytes} (hw : Tls13.IsRecord 20#8 c w) {h : ClientHandshake} (hs : Begun h) :
    ∃ r, Record.fromRaw w = .ok (w.length, r) ∧ handleRecord env r h = (.ok (), h) := by
  obtain ⟨v1, v2, hl, rfl⟩ := hw
  have := RecProof.fromRaw_header .changeCipherSpec v1 v2 c [] hl
  refine ⟨⟨.changeCipherSpec, v1.toNat * 256 + v2.toNat, c.length, [20#8, v1, v2, BitVec.ofNat 8 (c.length / 256), BitVec.ofNat 8 c.length], c⟩, ?_, ?_⟩
  · rw [List.append_nil] at this
    rw [RecProof.beBytes2]
    have hlen : ([20#8, v1, v2] ++ [BitVec.ofNat 8 (c.length / 256), BitVec.ofNat 8 c.length] ++ c).length = 5 + c.length := by simp; omega
    rw [hlen]
    exact this
  · unfold handleRecord
    rw [Step.bind_get]
    simp only []
    rw [if_neg hs]
    rfl

theorem feed_ccs (env : ClientEnv) {l l' : List Bytes} (hi : Tls13.Inserted (fun w => ∃ c, Tls13.IsRecord 20#8 c w) l l') :
    ∀ h : ClientHandshake, Begun h → feed env l' h = feed env l h := by
  induction hi with
  | nil => intro h _; rfl
  | keep w l l' _ ih =>
    intro h hb
    rw [feed, feed, Step.bind_eq, Step.bind_eq]
    rcases Record.fromRaw w with ⟨n, r⟩ | e | _
    · simp only [Step.lift]
      rw [Step.bind_eq, Step.bind_eq]
      rcases hh : handleRecord env r h with ⟨_ | _ | _, h'⟩
      · simp only []
        exact ih h' (record_begun hh)
      · rfl
      · rfl
    · rfl
    · rfl
  | add w l l' hw _ ih =>
    intro h hb
    obtain ⟨c, hc⟩ := hw
    obtain ⟨r, h1, h2⟩ := ccs_record env hc hb
    rw [feed, Step.bind_lift_ok h1]
    exact (Step.bind_of_ok h2).trans (ih h hb)

theorem feed_ccs_first (env : ClientEnv) {l l' : List Bytes} (hi : Tls13.Inserted (fun w => ∃ c, Tls13.IsRecord 20#8 c w) l l') (w : Bytes) (h : ClientHandshake) :
    feed env (w :: l') h = feed env (w :: l) h := by
  rw [feed, feed, Step.bind_eq, Step.bind_eq]
  rcases Record.fromRaw w with ⟨n, r⟩ | e | _
  · simp only [Step.lift]
    rw [Step.bind_eq, Step.bind_eq]
    rcases hh : handleRecord env r h with ⟨_ | _ | _, h'⟩
    · simp only []
      exact feed_ccs env hi h' (record_begun hh)
    · rfl
    · rfl
  · rfl
  · rfl

end ATLS.ClientProof
