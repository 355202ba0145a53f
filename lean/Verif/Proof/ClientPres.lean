import Verif.Proof.Pres
import Verif.Model.Client
/-
What every step of the client's handshake keeps.
-/
namespace ATLS.ClientProof
open ATLS ATLS.Model ClientHandshake

variable {P : ClientHandshake → Prop}

/-- The operations of the handshake that touch the stream or the key log keep `P`, and nothing else matters for `P`. -/
structure Keeps (env : ClientEnv) (P : ClientHandshake → Prop) : Prop where
  hello : ∀ data, Step.Pres P (onStream fun s => s.tcpWrite (Record.new .handshake data).asBytes)
  write : ∀ t data, t ≠ .alert → Step.Pres P (writeRecord t data)
  read : Step.Pres P (onStream fun s => s.tcpRead 2048)
  flush : Step.Pres P (onStream TlsStream.flush)
  protect : ∀ h p, P h → P { h with stream := h.stream.setProtection p }
  log1 : ∀ p, Step.Pres P (logHandshakeSecrets env p)
  log2 : ∀ p, Step.Pres P (logApplicationSecrets p)
  frame : ∀ h h' : ClientHandshake, h'.stream = h.stream → h'.keylog = h.keylog → h'.logged = h.logged → P h → P h'

namespace Keeps
variable {env : ClientEnv} (k : Keeps env P)
include k

theorem mod {g : ClientHandshake → ClientHandshake} (h : ∀ h, (g h).stream = h.stream ∧ (g h).keylog = h.keylog ∧ (g h).logged = h.logged) :
    Step.Pres P (Step.modify g : M Unit) := fun s hs => k.frame s _ (h s).1 (h s).2.1 (h s).2.2 hs

theorem state (s : ClientHsState) : Step.Pres P (setState s) := k.mod fun _ => ⟨rfl, rfl, rfl⟩
omit k in
theorem tshash : Step.Pres P getTshash := fun _ h => h
omit k in
theorem protection : Step.Pres P getProtection := fun _ h => h
theorem setProtection (p : Option RecordPayloadProtection) : Step.Pres P (ClientHandshake.setProtection p) := fun h hs => k.protect h p hs

theorem update (b : Bytes) : Step.Pres P (updateTshash b) :=
  Step.Pres.bind tshash fun _ => k.mod fun _ => ⟨rfl, rfl, rfl⟩

theorem clientHello : Step.Pres P (sendClientHello env) := by
  unfold sendClientHello
  pres
  all_goals first
    | exact k.hello _
    | exact k.mod fun _ => ⟨rfl, rfl, rfl⟩

theorem serverHello (r : Record) : Step.Pres P (handleServerHello env r) := by
  unfold handleServerHello
  pres
  all_goals first
    | exact k.log1 _
    | exact k.setProtection _
    | exact k.state _
    | exact k.mod fun _ => ⟨rfl, rfl, rfl⟩

theorem extensions (m : Handshake) : Step.Pres P (handleEncryptedExtension m) := by
  unfold handleEncryptedExtension
  pres
  all_goals first
    | exact k.update _
    | exact k.state _

theorem certificate (m : Handshake) : Step.Pres P (handleServerCertificate env m) := by
  unfold handleServerCertificate
  pres
  all_goals first
    | exact k.update _
    | exact k.state _
    | exact k.mod fun _ => ⟨rfl, rfl, rfl⟩

theorem certificateVerify (m : Handshake) : Step.Pres P (handleServerCertificateVerify m) := by
  unfold handleServerCertificateVerify
  pres
  all_goals first
    | exact tshash
    | exact k.update _
    | exact k.state _

theorem sendVerify : Step.Pres P (sendCertificateVerify env) := by
  unfold sendCertificateVerify
  pres
  all_goals first
    | exact tshash
    | exact k.update _
    | exact k.write _ _ (by decide)

theorem request : Step.Pres P (handleCertificateRequest env) := by
  unfold handleCertificateRequest
  pres
  all_goals first
    | exact k.update _
    | exact k.state _
    | exact k.sendVerify
    | exact k.write _ _ (by decide)

theorem answer : Step.Pres P (answerRequest env) := by
  unfold answerRequest
  pres
  exact k.request

theorem finish (m : Handshake) : Step.Pres P (handleServerFinish env m) := by
  unfold handleServerFinish
  pres
  all_goals first
    | exact tshash
    | exact protection
    | exact k.update _
    | exact k.answer
    | exact k.write _ _ (by decide)
    | exact k.flush
    | exact k.state _
    | exact k.setProtection _
    | exact k.log2 _

theorem message (m : Handshake) : Step.Pres P (handleMessage env m) := by
  unfold handleMessage
  pres
  all_goals first
    | exact k.extensions _
    | exact k.certificate _
    | exact k.certificateVerify _
    | exact k.finish _
    | exact k.update _
    | exact k.state _
    | exact k.mod fun _ => ⟨rfl, rfl, rfl⟩

theorem messages : ∀ (fuel : Nat) (rest : Bytes), Step.Pres P (messagesLoop env fuel rest) := by
  intro fuel
  induction fuel with
  | zero => intro rest; unfold messagesLoop; pres
  | succ n ih =>
    intro rest
    unfold messagesLoop
    pres
    · exact k.message _
    · exact ih _

theorem decrypt (r : Record) : Step.Pres P (decryptRecord r) :=
  Step.Pres.bind protection fun _ h hs => k.protect h _ hs

theorem encrypted (r : Record) : Step.Pres P (handleEncryptedRecord env r) := by
  unfold handleEncryptedRecord
  pres
  all_goals first
    | exact k.decrypt _
    | exact k.messages _ _

theorem record (r : Record) : Step.Pres P (handleRecord env r) := by
  unfold handleRecord
  pres
  all_goals first
    | exact k.serverHello _
    | exact k.encrypted _

theorem records (rx : Bytes) : ∀ (fuel offset : Nat) (d : Bytes), Step.Pres P (recordsLoop env rx fuel offset d) := by
  intro fuel
  induction fuel with
  | zero => intro o d; unfold recordsLoop; pres
  | succ n ih =>
    intro o d
    unfold recordsLoop
    pres
    all_goals first
      | exact k.record _
      | exact ih _ _

theorem reads : ∀ (fuel : Nat) (d : Bytes), Step.Pres P (readLoop env fuel d) := by
  intro fuel
  induction fuel with
  | zero => intro d; unfold readLoop; pres
  | succ n ih =>
    intro d
    unfold readLoop
    pres
    all_goals first
      | exact k.read
      | exact k.records _ _ _ _
      | exact k.flush
      | exact ih _

theorem handshake : Step.Pres P (doHandshake env) :=
  Step.Pres.bind k.clientHello fun _ h hs => k.reads _ _ h hs

end Keeps
end ATLS.ClientProof
