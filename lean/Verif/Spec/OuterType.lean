import Verif.Spec.Handshake
/-
RFC 8446 section 5.2: the header of a protected record.
-/
namespace ATLS.Spec.Tls13
open ATLS ATLS.Spec

/-- `wire` is a protected record for `content` of type `type`, except that the type and version in its header are `outer`, `v1` and `v2`. RFC 8446 requires
23, 3 and 3. -/
def ProtectedAs (outer v1 v2 : Byte) (aead : Seal) (key iv : Bytes) (seq : Nat) (type : Byte) (content wire : Bytes) : Prop :=
  ∃ (header ct tag : Bytes) (padding : Nat), content.length + padding + 17 < 2 ^ 16 ∧ header = [outer, v1, v2] ++ beBytes 2 (content.length + 1 + padding + 16) ∧
    wire = header ++ ct ++ tag ∧ aead key (nonce iv seq) (content ++ [type] ++ zeros padding) header = some (ct, tag)

/-- With 23, 3 and 3 it is a protected record. -/
theorem protectedAs_iff (aead : Seal) (key iv : Bytes) (seq : Nat) (type : Byte) (content wire : Bytes) :
    ProtectedAs 23#8 3#8 3#8 aead key iv seq type content wire ↔ Protected aead key iv seq type content wire := by
  constructor
  · rintro ⟨header, ct, tag, n, h1, rfl, h2, h3⟩; exact ⟨ct, tag, n, h1, h2, h3⟩
  · rintro ⟨ct, tag, n, h1, h2, h3⟩; exact ⟨_, ct, tag, n, h1, rfl, h2, h3⟩

end ATLS.Spec.Tls13
