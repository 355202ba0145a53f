import Verif.Proof.Rel
import Verif.Model.Server
import Verif.Proof.Server
/-
The server's handshake does not depend on when its output is flushed and on what is still to be read.
-/
namespace ATLS.ServerProof
open ATLS ATLS.Model ServerHandshake FlowProof

/-- Two states of the handshake that differ only in what is still to be read and in how much of the output is buffered. -/
def Alike (i j : List Bytes) (h k : ServerHandshake) : Prop := ∃ s, k = { h with stream := s } ∧ FlowProof.Alike i j h.stream s

namespace Rel
variable {i j : List Bytes}

theorem mod {g : ServerHandshake → ServerHandshake} (h : ∀ (h : ServerHandshake) (s : TlsStream), (g { h with stream := s }) = { g h with stream := s } ∧ (g h).stream = h.stream) :
    Step.Rel (Alike i j) (Step.modify g : M Unit) := Step.Rel.modify fun a b hab => by
  obtain ⟨s, rfl, hs⟩ := hab
  exact ⟨s, (h a s).1, by rw [(h a s).2]; exact hs⟩

theorem write (t : RecordType) (data : Bytes) : Step.Rel (Alike i j) (writeRecord t data) := by
  rintro a _ ⟨s, rfl, hs⟩
  obtain ⟨h1, h2⟩ := hs.write t data
  exact ⟨h1, _, rfl, h2⟩

theorem flush : Step.Rel (Alike i j) (onStream TlsStream.flush) := by
  rintro a _ ⟨s, rfl, hs⟩
  obtain ⟨h1, h2⟩ := hs.flush
  exact ⟨h1, _, rfl, h2⟩

theorem state (s : ServerHsState) : Step.Rel (Alike i j) (setState s) := mod fun _ _ => ⟨rfl, rfl⟩
theorem tshash : Step.Rel (Alike i j) getTshash := by rintro a _ ⟨s, rfl, hs⟩; exact ⟨rfl, s, rfl, hs⟩
theorem protection : Step.Rel (Alike i j) getProtection := by
  rintro a _ ⟨s, rfl, hs⟩
  exact ⟨by unfold getProtection; simp only [hs.protection], s, rfl, hs⟩
theorem setProtection (p : Option RecordPayloadProtection) : Step.Rel (Alike i j) (ServerHandshake.setProtection p) := by
  rintro a _ ⟨s, rfl, hs⟩
  exact ⟨rfl, _, rfl, hs.setProtection p⟩

theorem update (b : Bytes) : Step.Rel (Alike i j) (updateTshash b) := Step.Rel.bind tshash fun _ => mod fun _ _ => ⟨rfl, rfl⟩

variable {env : ServerEnv}

theorem log1 (p : Option RecordPayloadProtection) (r : Bytes) : Step.Rel (Alike i j) (logHandshakeSecrets env p r) := by
  unfold logHandshakeSecrets
  rel
  exact mod fun _ _ => ⟨rfl, rfl⟩

theorem log2 (p : RecordPayloadProtection) : Step.Rel (Alike i j) (logApplicationSecrets p) := by
  rintro a _ ⟨s, rfl, hs⟩
  rcases a with ⟨a1, a2, kl, a4, a5, a6, a7, a8, a9⟩
  cases kl with
  | none => exact ⟨rfl, s, rfl, hs⟩
  | some k => exact ⟨rfl, s, rfl, hs⟩

theorem request (t : TsHash) : Step.Rel (Alike i j) (sendCertificateRequest env t) := by
  unfold sendCertificateRequest
  rel
  all_goals first
    | (rintro _ _ ⟨_, rfl, _⟩; rfl)
    | exact write _ _
    | exact mod fun _ _ => ⟨rfl, rfl⟩

theorem flight (t : TsHash) : Step.Rel (Alike i j) (sendFlight env t) := by
  unfold sendFlight
  rel
  all_goals first
    | (rintro _ _ ⟨_, rfl, _⟩; rfl)
    | exact write _ _
    | exact request _
    | exact protection
    | exact state _
    | exact mod fun _ _ => ⟨rfl, rfl⟩

theorem ccs (ch : ClientHello) : Step.Rel (Alike i j) (sendChangeCipherSpec ch) := by
  unfold sendChangeCipherSpec
  rel
  exact write _ _

theorem hello (r : Record) : Step.Rel (Alike i j) (handleClientHello env r) := by
  unfold handleClientHello
  rel
  all_goals first
    | (rintro _ _ ⟨_, rfl, _⟩; rfl)
    | exact write _ _
    | exact ccs _
    | exact log1 _ _
    | exact setProtection _
    | exact flight _
    | exact mod fun _ _ => ⟨rfl, rfl⟩

theorem certificate (r : Record) : Step.Rel (Alike i j) (handleClientCertificate env r) := by
  unfold handleClientCertificate
  rel
  all_goals first
    | (rintro _ _ ⟨_, rfl, _⟩; rfl)
    | exact tshash
    | exact update _
    | exact state _
    | exact mod fun _ _ => ⟨rfl, rfl⟩

theorem certificateVerify (r : Record) : Step.Rel (Alike i j) (handleClientCertificateVerify r) := by
  unfold handleClientCertificateVerify
  rel
  all_goals first
    | (rintro _ _ ⟨_, rfl, _⟩; rfl)
    | exact tshash
    | exact update _
    | exact state _

theorem finish (r : Record) : Step.Rel (Alike i j) (handleClientFinish r) := by
  unfold handleClientFinish
  rel
  all_goals first
    | (rintro _ _ ⟨_, rfl, _⟩; rfl)
    | exact tshash
    | exact protection
    | exact update _
    | exact state _
    | exact setProtection _
    | exact log2 _

theorem decrypt (r : Record) : Step.Rel (Alike i j) (decryptRecord r) := by
  refine Step.Rel.bind protection fun p => ?_
  rintro a _ ⟨s, rfl, hs⟩
  exact ⟨rfl, _, rfl, hs.setProtection _⟩

theorem encrypted (r : Record) : Step.Rel (Alike i j) (handleEncryptedRecord env r) := by
  unfold handleEncryptedRecord
  rel
  all_goals first
    | (rintro _ _ ⟨_, rfl, _⟩; rfl)
    | exact decrypt _
    | exact certificate _
    | exact certificateVerify _
    | exact finish _

theorem record (r : Record) : Step.Rel (Alike i j) (handleRecord env r) := by
  unfold handleRecord
  rel
  all_goals first
    | (rintro _ _ ⟨_, rfl, _⟩; rfl)
    | exact hello _
    | exact encrypted _

end Rel
end ATLS.ServerProof
