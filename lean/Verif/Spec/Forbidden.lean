import Verif.Spec.Delivery
import Verif.Spec.Handshake
/-
RFC 8446, section 5: which change_cipher_spec records an endpoint drops, and which end the handshake.
-/
namespace ATLS.Spec.Tls13
open ATLS ATLS.Spec

/-- A change_cipher_spec record with any other value than the single byte 1. -/
def WrongCcs (w : Bytes) : Prop := ∃ content, content ≠ [1#8] ∧ IsRecord 20#8 content w

end ATLS.Spec.Tls13
