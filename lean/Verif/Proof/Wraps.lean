import Verif.Proof.ServerPres
import Verif.Proof.ClientPres
/-
What the steps of the handshakes keep once there are keys: as `Keeps`, but keys are only replaced by keys.
-/
namespace ATLS.ServerProof
open ATLS ATLS.Model ServerHandshake

variable {P : ServerHandshake → Prop}

/-- The operations of the handshake that touch the stream or the key log keep `P`, and nothing else matters for `P`. -/
structure Wraps (env : ServerEnv) (P : ServerHandshake → Prop) : Prop where
  write : ∀ t data, t ≠ .alert → Step.Pres P (writeRecord t data)
  read : Step.Pres P (onStream fun s => s.tcpRead 4096)
  flush : Step.Pres P (onStream TlsStream.flush)
  protect : ∀ h p, P h → P { h with stream := h.stream.setProtection (some p) }
  log1 : ∀ p r, Step.Pres P (logHandshakeSecrets env p r)
  log2 : ∀ p, Step.Pres P (logApplicationSecrets p)
  frame : ∀ h h' : ServerHandshake, h'.stream = h.stream → h'.keylog = h.keylog → h'.logged = h.logged → P h → P h'

namespace Wraps
variable {env : ServerEnv} (k : Wraps env P)
include k

theorem mod {g : ServerHandshake → ServerHandshake} (h : ∀ h, (g h).stream = h.stream ∧ (g h).keylog = h.keylog ∧ (g h).logged = h.logged) :
    Step.Pres P (Step.modify g : M Unit) := fun s hs => k.frame s _ (h s).1 (h s).2.1 (h s).2.2 hs

theorem state (s : ServerHsState) : Step.Pres P (setState s) := k.mod fun _ => ⟨rfl, rfl, rfl⟩
omit k in
theorem tshash : Step.Pres P getTshash := fun _ h => h
omit k in
theorem protection : Step.Pres P getProtection := fun _ h => h
theorem setProtection (p : RecordPayloadProtection) : Step.Pres P (ServerHandshake.setProtection (some p)) := fun h hs => k.protect h p hs

theorem update (b : Bytes) : Step.Pres P (updateTshash b) :=
  Step.Pres.bind tshash fun _ => k.mod fun _ => ⟨rfl, rfl, rfl⟩

theorem request (t : TsHash) : Step.Pres P (sendCertificateRequest env t) := by
  unfold sendCertificateRequest
  pres
  all_goals first
    | exact k.write _ _ (by decide)
    | exact k.mod fun _ => ⟨rfl, rfl, rfl⟩

theorem flight (t : TsHash) : Step.Pres P (sendFlight env t) := by
  unfold sendFlight
  pres
  all_goals first
    | exact k.write _ _ (by decide)
    | exact k.request _
    | exact protection
    | exact k.state _
    | exact k.mod fun _ => ⟨rfl, rfl, rfl⟩

theorem certificate (r : Record) : Step.Pres P (handleClientCertificate env r) := by
  unfold handleClientCertificate
  pres
  all_goals first
    | exact tshash
    | exact k.update _
    | exact k.state _
    | exact k.mod fun _ => ⟨rfl, rfl, rfl⟩

theorem certificateVerify (r : Record) : Step.Pres P (handleClientCertificateVerify r) := by
  unfold handleClientCertificateVerify
  pres
  all_goals first
    | exact tshash
    | exact k.update _
    | exact k.state _

theorem finish (r : Record) : Step.Pres P (handleClientFinish r) := by
  unfold handleClientFinish
  pres
  all_goals first
    | exact tshash
    | exact protection
    | exact k.update _
    | exact k.state _
    | exact k.setProtection _
    | exact k.log2 _

theorem decrypt (r : Record) : Step.Pres P (decryptRecord r) :=
  Step.Pres.bind protection fun _ h hs => k.protect h _ hs

theorem encrypted (r : Record) : Step.Pres P (handleEncryptedRecord env r) := by
  unfold handleEncryptedRecord
  pres
  all_goals first
    | exact k.decrypt _
    | exact k.certificate _
    | exact k.certificateVerify _
    | exact k.finish _

end Wraps

end ATLS.ServerProof

namespace ATLS.ClientProof
open ATLS ATLS.Model ClientHandshake

variable {P : ClientHandshake → Prop}

/-- The operations of the handshake that touch the stream or the key log keep `P`, and nothing else matters for `P`. -/
structure Wraps (env : ClientEnv) (P : ClientHandshake → Prop) : Prop where
  write : ∀ t data, t ≠ .alert → Step.Pres P (writeRecord t data)
  read : Step.Pres P (onStream fun s => s.tcpRead 2048)
  flush : Step.Pres P (onStream TlsStream.flush)
  protect : ∀ h p, P h → P { h with stream := h.stream.setProtection (some p) }
  log1 : ∀ p, Step.Pres P (logHandshakeSecrets env p)
  log2 : ∀ p, Step.Pres P (logApplicationSecrets p)
  frame : ∀ h h' : ClientHandshake, h'.stream = h.stream → h'.keylog = h.keylog → h'.logged = h.logged → P h → P h'

namespace Wraps
variable {env : ClientEnv} (k : Wraps env P)
include k

theorem mod {g : ClientHandshake → ClientHandshake} (h : ∀ h, (g h).stream = h.stream ∧ (g h).keylog = h.keylog ∧ (g h).logged = h.logged) :
    Step.Pres P (Step.modify g : M Unit) := fun s hs => k.frame s _ (h s).1 (h s).2.1 (h s).2.2 hs

theorem state (s : ClientHsState) : Step.Pres P (setState s) := k.mod fun _ => ⟨rfl, rfl, rfl⟩
omit k in
theorem tshash : Step.Pres P getTshash := fun _ h => h
omit k in
theorem protection : Step.Pres P getProtection := fun _ h => h
theorem setProtection (p : RecordPayloadProtection) : Step.Pres P (ClientHandshake.setProtection (some p)) := fun h hs => k.protect h p hs

theorem update (b : Bytes) : Step.Pres P (updateTshash b) :=
  Step.Pres.bind tshash fun _ => k.mod fun _ => ⟨rfl, rfl, rfl⟩

theorem extensions (m : Handshake) : Step.Pres P (handleEncryptedExtension m) := by
  unfold handleEncryptedExtension
  pres
  all_goals first
    | exact k.update _
    | exact k.state _

theorem certificate (m : Handshake) : Step.Pres P (handleServerCertificate env m) := by
  unfold handleServerCertificate
  pres
  all_goals first
    | exact k.update _
    | exact k.state _
    | exact k.mod fun _ => ⟨rfl, rfl, rfl⟩

theorem certificateVerify (m : Handshake) : Step.Pres P (handleServerCertificateVerify m) := by
  unfold handleServerCertificateVerify
  pres
  all_goals first
    | exact tshash
    | exact k.update _
    | exact k.state _

theorem sendVerify : Step.Pres P (sendCertificateVerify env) := by
  unfold sendCertificateVerify
  pres
  all_goals first
    | exact tshash
    | exact k.update _
    | exact k.write _ _ (by decide)

theorem request : Step.Pres P (handleCertificateRequest env) := by
  unfold handleCertificateRequest
  pres
  all_goals first
    | exact k.update _
    | exact k.state _
    | exact k.sendVerify
    | exact k.write _ _ (by decide)

theorem answer : Step.Pres P (answerRequest env) := by
  unfold answerRequest
  pres
  exact k.request

theorem finish (m : Handshake) : Step.Pres P (handleServerFinish env m) := by
  unfold handleServerFinish
  pres
  all_goals first
    | exact tshash
    | exact protection
    | exact k.update _
    | exact k.answer
    | exact k.write _ _ (by decide)
    | exact k.flush
    | exact k.state _
    | exact k.setProtection _
    | exact k.log2 _

theorem message (m : Handshake) : Step.Pres P (handleMessage env m) := by
  unfold handleMessage
  pres
  all_goals first
    | exact k.extensions _
    | exact k.certificate _
    | exact k.certificateVerify _
    | exact k.finish _
    | exact k.update _
    | exact k.state _
    | exact k.mod fun _ => ⟨rfl, rfl, rfl⟩

theorem messages : ∀ (fuel : Nat) (rest : Bytes), Step.Pres P (messagesLoop env fuel rest) := by
  intro fuel
  induction fuel with
  | zero => intro rest; unfold messagesLoop; pres
  | succ n ih =>
    intro rest
    unfold messagesLoop
    pres
    · exact k.message _
    · exact ih _

theorem decrypt (r : Record) : Step.Pres P (decryptRecord r) :=
  Step.Pres.bind protection fun _ h hs => k.protect h _ hs

theorem encrypted (r : Record) : Step.Pres P (handleEncryptedRecord env r) := by
  unfold handleEncryptedRecord
  pres
  all_goals first
    | exact k.decrypt _
    | exact k.messages _ _

end Wraps

end ATLS.ClientProof
