import Verif.Proof.Rel
import Verif.Model.Client
import Verif.Proof.Client
/-
The client's handshake does not depend on when its output is flushed and on what is still to be read.
-/
namespace ATLS.ClientProof
open ATLS ATLS.Model ClientHandshake FlowProof

/-- Two states of the handshake that differ only in what is still to be read and in how much of the output is buffered. -/
def Alike (i j : List Bytes) (h k : ClientHandshake) : Prop := ∃ s, k = { h with stream := s } ∧ FlowProof.Alike i j h.stream s

namespace Rel
variable {i j : List Bytes}

theorem mod {g : ClientHandshake → ClientHandshake} (h : ∀ (h : ClientHandshake) (s : TlsStream), (g { h with stream := s }) = { g h with stream := s } ∧ (g h).stream = h.stream) :
    Step.Rel (Alike i j) (Step.modify g : M Unit) := Step.Rel.modify fun a b hab => by
  obtain ⟨s, rfl, hs⟩ := hab
  exact ⟨s, (h a s).1, by rw [(h a s).2]; exact hs⟩

theorem write (t : RecordType) (data : Bytes) : Step.Rel (Alike i j) (writeRecord t data) := by
  rintro a _ ⟨s, rfl, hs⟩
  obtain ⟨h1, h2⟩ := hs.write t data
  exact ⟨h1, _, rfl, h2⟩

theorem flush : Step.Rel (Alike i j) (onStream TlsStream.flush) := by
  rintro a _ ⟨s, rfl, hs⟩
  obtain ⟨h1, h2⟩ := hs.flush
  exact ⟨h1, _, rfl, h2⟩

theorem state (s : ClientHsState) : Step.Rel (Alike i j) (setState s) := mod fun _ _ => ⟨rfl, rfl⟩
theorem tshash : Step.Rel (Alike i j) getTshash := by rintro a _ ⟨s, rfl, hs⟩; exact ⟨rfl, s, rfl, hs⟩
theorem protection : Step.Rel (Alike i j) getProtection := by
  rintro a _ ⟨s, rfl, hs⟩
  exact ⟨by unfold getProtection; simp only [hs.protection], s, rfl, hs⟩
theorem setProtection (p : Option RecordPayloadProtection) : Step.Rel (Alike i j) (ClientHandshake.setProtection p) := by
  rintro a _ ⟨s, rfl, hs⟩
  exact ⟨rfl, _, rfl, hs.setProtection p⟩

theorem update (b : Bytes) : Step.Rel (Alike i j) (updateTshash b) := Step.Rel.bind tshash fun _ => mod fun _ _ => ⟨rfl, rfl⟩

variable {env : ClientEnv}

theorem log1 (p : Option RecordPayloadProtection) : Step.Rel (Alike i j) (logHandshakeSecrets env p) := by
  unfold logHandshakeSecrets
  rel
  all_goals first
    | (rintro _ _ ⟨_, rfl, _⟩; rfl)
    | exact mod fun _ _ => ⟨rfl, rfl⟩

theorem log2 (p : RecordPayloadProtection) : Step.Rel (Alike i j) (logApplicationSecrets p) := by
  rintro a _ ⟨s, rfl, hs⟩
  rcases a with ⟨a1, a2, a3, kl, a4, a5, a6, a7, a8, a9, a10⟩
  cases kl with
  | none => exact ⟨rfl, s, rfl, hs⟩
  | some k => exact ⟨rfl, s, rfl, hs⟩

theorem serverHello (r : Record) : Step.Rel (Alike i j) (handleServerHello env r) := by
  unfold handleServerHello
  rel
  all_goals first
    | (rintro _ _ ⟨_, rfl, _⟩; rfl)
    | exact log1 _
    | exact setProtection _
    | exact state _
    | exact mod fun _ _ => ⟨rfl, rfl⟩

theorem extensions (m : Handshake) : Step.Rel (Alike i j) (handleEncryptedExtension m) := by
  unfold handleEncryptedExtension
  rel
  all_goals first
    | exact update _
    | exact state _

theorem certificate (m : Handshake) : Step.Rel (Alike i j) (handleServerCertificate env m) := by
  unfold handleServerCertificate
  rel
  all_goals first
    | exact update _
    | exact state _
    | exact mod fun _ _ => ⟨rfl, rfl⟩

theorem certificateVerify (m : Handshake) : Step.Rel (Alike i j) (handleServerCertificateVerify m) := by
  unfold handleServerCertificateVerify
  rel
  all_goals first
    | (rintro _ _ ⟨_, rfl, _⟩; rfl)
    | exact tshash
    | exact update _
    | exact state _

theorem sendVerify : Step.Rel (Alike i j) (sendCertificateVerify env) := by
  unfold sendCertificateVerify
  rel
  all_goals first
    | exact tshash
    | exact update _
    | exact write _ _

theorem request : Step.Rel (Alike i j) (handleCertificateRequest env) := by
  unfold handleCertificateRequest
  rel
  all_goals first
    | (rintro _ _ ⟨_, rfl, _⟩; rfl)
    | exact update _
    | exact write _ _
    | exact sendVerify
    | exact state _

theorem answer : Step.Rel (Alike i j) (answerRequest env) := by
  unfold answerRequest
  rel
  all_goals first
    | (rintro _ _ ⟨_, rfl, _⟩; rfl)
    | exact request

theorem finish (m : Handshake) : Step.Rel (Alike i j) (handleServerFinish env m) := by
  unfold handleServerFinish
  rel
  all_goals first
    | (rintro _ _ ⟨_, rfl, _⟩; rfl)
    | exact tshash
    | exact protection
    | exact update _
    | exact answer
    | exact write _ _
    | exact flush
    | exact state _
    | exact setProtection _
    | exact log2 _

theorem message (m : Handshake) : Step.Rel (Alike i j) (handleMessage env m) := by
  unfold handleMessage
  rel
  all_goals first
    | (rintro _ _ ⟨_, rfl, _⟩; rfl)
    | exact extensions _
    | exact update _
    | exact state _
    | exact certificate _
    | exact certificateVerify _
    | exact finish _
    | exact mod fun _ _ => ⟨rfl, rfl⟩

theorem messages : ∀ (fuel : Nat) (rest : Bytes), Step.Rel (Alike i j) (messagesLoop env fuel rest) := by
  intro fuel
  induction fuel with
  | zero => intro rest; unfold messagesLoop; rel
  | succ n ih =>
    intro rest
    unfold messagesLoop
    rel
    · exact message _
    · exact ih _

theorem decrypt (r : Record) : Step.Rel (Alike i j) (decryptRecord r) := by
  refine Step.Rel.bind protection fun p => ?_
  rintro a _ ⟨s, rfl, hs⟩
  exact ⟨rfl, _, rfl, hs.setProtection _⟩

theorem encrypted (r : Record) : Step.Rel (Alike i j) (handleEncryptedRecord env r) := by
  unfold handleEncryptedRecord
  rel
  all_goals first
    | exact decrypt _
    | exact messages _ _

theorem record (r : Record) : Step.Rel (Alike i j) (handleRecord env r) := by
  unfold handleRecord
  rel
  all_goals first
    | (rintro _ _ ⟨_, rfl, _⟩; rfl)
    | exact serverHello _
    | exact encrypted _

end Rel
end ATLS.ClientProof
