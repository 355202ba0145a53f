import Verif.Proof.Pres
import Verif.Model.Server
/-
What every step of the server's handshake keeps.
-/
namespace ATLS.ServerProof
open ATLS ATLS.Model ServerHandshake

variable {P : ServerHandshake → Prop}

/-- The operations of the handshake that touch the stream or the key log keep `P`, and nothing else matters for `P`. -/
structure Keeps (env : ServerEnv) (P : ServerHandshake → Prop) : Prop where
  write : ∀ t data, t ≠ .alert → Step.Pres P (writeRecord t data)
  read : Step.Pres P (onStream fun s => s.tcpRead 4096)
  flush : Step.Pres P (onStream TlsStream.flush)
  protect : ∀ h p, P h → P { h with stream := h.stream.setProtection p }
  log1 : ∀ p r, Step.Pres P (logHandshakeSecrets env p r)
  log2 : ∀ p, Step.Pres P (logApplicationSecrets p)
  frame : ∀ h h' : ServerHandshake, h'.stream = h.stream → h'.keylog = h.keylog → h'.logged = h.logged → P h → P h'

namespace Keeps
variable {env : ServerEnv} (k : Keeps env P)
include k

theorem mod {g : ServerHandshake → ServerHandshake} (h : ∀ h, (g h).stream = h.stream ∧ (g h).keylog = h.keylog ∧ (g h).logged = h.logged) :
    Step.Pres P (Step.modify g : M Unit) := fun s hs => k.frame s _ (h s).1 (h s).2.1 (h s).2.2 hs

theorem state (s : ServerHsState) : Step.Pres P (setState s) := k.mod fun _ => ⟨rfl, rfl, rfl⟩
omit k in
theorem tshash : Step.Pres P getTshash := fun _ h => h
omit k in
theorem protection : Step.Pres P getProtection := fun _ h => h
theorem setProtection (p : Option RecordPayloadProtection) : Step.Pres P (ServerHandshake.setProtection p) := fun h hs => k.protect h p hs

theorem update (b : Bytes) : Step.Pres P (updateTshash b) :=
  Step.Pres.bind tshash fun _ => k.mod fun _ => ⟨rfl, rfl, rfl⟩

theorem request (t : TsHash) : Step.Pres P (sendCertificateRequest env t) := by
  unfold sendCertificateRequest
  pres
  all_goals first
    | exact k.write _ _ (by decide)
    | exact k.mod fun _ => ⟨rfl, rfl, rfl⟩

theorem flight (t : TsHash) : Step.Pres P (sendFlight env t) := by
  unfold sendFlight
  pres
  all_goals first
    | exact k.write _ _ (by decide)
    | exact k.request _
    | exact protection
    | exact k.state _
    | exact k.mod fun _ => ⟨rfl, rfl, rfl⟩

theorem ccs (ch : ClientHello) : Step.Pres P (sendChangeCipherSpec ch) := by
  unfold sendChangeCipherSpec
  pres
  exact k.write _ _ (by decide)

theorem hello (r : Record) : Step.Pres P (handleClientHello env r) := by
  unfold handleClientHello
  pres
  all_goals first
    | exact k.write _ _ (by decide)
    | exact k.ccs _
    | exact k.log1 _ _
    | exact k.setProtection _
    | exact k.flight _
    | exact k.mod fun _ => ⟨rfl, rfl, rfl⟩

theorem certificate (r : Record) : Step.Pres P (handleClientCertificate env r) := by
  unfold handleClientCertificate
  pres
  all_goals first
    | exact tshash
    | exact k.update _
    | exact k.state _
    | exact k.mod fun _ => ⟨rfl, rfl, rfl⟩

theorem certificateVerify (r : Record) : Step.Pres P (handleClientCertificateVerify r) := by
  unfold handleClientCertificateVerify
  pres
  all_goals first
    | exact tshash
    | exact k.update _
    | exact k.state _

theorem finish (r : Record) : Step.Pres P (handleClientFinish r) := by
  unfold handleClientFinish
  pres
  all_goals first
    | exact tshash
    | exact protection
    | exact k.update _
    | exact k.state _
    | exact k.setProtection _
    | exact k.log2 _

theorem decrypt (r : Record) : Step.Pres P (decryptRecord r) :=
  Step.Pres.bind protection fun _ h hs => k.protect h _ hs

theorem encrypted (r : Record) : Step.Pres P (handleEncryptedRecord env r) := by
  unfold handleEncryptedRecord
  pres
  all_goals first
    | exact k.decrypt _
    | exact k.certificate _
    | exact k.certificateVerify _
    | exact k.finish _

theorem record (r : Record) : Step.Pres P (handleRecord env r) := by
  unfold handleRecord
  pres
  all_goals first
    | exact k.hello _
    | exact k.encrypted _

theorem records : ∀ (fuel : Nat) (rest : Bytes), Step.Pres P (recordsLoop env fuel rest) := by
  intro fuel
  induction fuel with
  | zero => intro rest; unfold recordsLoop; pres
  | succ n ih =>
    intro rest
    unfold recordsLoop
    pres
    · exact k.record _
    · exact ih _

theorem reads : ∀ fuel : Nat, Step.Pres P (readLoop env fuel) := by
  intro fuel
  induction fuel with
  | zero => unfold readLoop; pres
  | succ n ih =>
    unfold readLoop
    pres
    · exact k.read
    · exact k.records _ _
    · exact k.flush

theorem handshake : Step.Pres P (doHandshake env) := fun h hs => k.reads _ h hs

end Keeps
end ATLS.ServerProof
