import Verif.Spec.PostHandshake
/-
RFC 8446, section 5.5: how many records may be encrypted under one key.
-/
namespace ATLS.Spec.Tls13
open ATLS ATLS.Spec

/-- 2^24.5 full-size records for AES-GCM (rounded down). For ChaCha20-Poly1305 "the record sequence number would wrap before the safety limit is reached", so
the limit is the number of sequence numbers. -/
def recordLimit (code : Nat) : Nat := if code = 0x1303 then 2 ^ 64 else 23726566

/-- It is 2^24.5 rounded down. -/
example : recordLimit 0x1301 ^ 2 ≤ 2 ^ 49 ∧ 2 ^ 49 < (recordLimit 0x1301 + 1) ^ 2 := by decide

end ATLS.Spec.Tls13
