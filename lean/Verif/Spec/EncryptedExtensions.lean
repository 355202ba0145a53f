import Verif.Spec.Handshake
/-
RFC 8446 sections 4.2 and 4.3.1: EncryptedExtensions.
-/
namespace ATLS.Spec.Tls13
open ATLS

/-- The extensions that section 4.2 allows in other messages but not in EncryptedExtensions: "The client MUST check EncryptedExtensions for the presence
of any forbidden extensions and if any are found MUST abort the handshake with an illegal_parameter alert." -/
def forbiddenExtensions : List Nat := [5, 13, 18, 21, 41, 43, 44, 45, 47, 48, 49, 50, 51]

/-- The body of an EncryptedExtensions message that RFC 8446 permits: a list of extensions (type, content), each type at most once and none of them
forbidden. -/
def PermittedExtensions (ee : Bytes) : Prop :=
  ∃ (extensions : List (Nat × Bytes)) (list : Bytes), (∀ e ∈ extensions, e.1 < 2 ^ 16 ∧ e.2.length < 2 ^ 16 ∧ e.1 ∉ forbiddenExtensions) ∧
    (extensions.map Prod.fst).Nodup ∧ list = (extensions.map fun e => beBytes 2 e.1 ++ beBytes 2 e.2.length ++ e.2).flatten ∧ list.length < 2 ^ 16 ∧
    ee = beBytes 2 list.length ++ list

/-- The empty list, and a server_name extension, are permitted. -/
example : PermittedExtensions [0#8, 0#8] := ⟨[], [], by simp, by simp, rfl, by simp, rfl⟩
example : PermittedExtensions [0#8, 4#8, 0#8, 0#8, 0#8, 0#8] := ⟨[(0, [])], _, by simp [forbiddenExtensions], by simp, rfl, by decide, rfl⟩

/-- What is permitted has at least two bytes. -/
theorem PermittedExtensions.length {ee : Bytes} (h : PermittedExtensions ee) : 2 ≤ ee.length := by
  obtain ⟨_, list, _, _, _, _, rfl⟩ := h
  simp [beBytes]

end ATLS.Spec.Tls13
