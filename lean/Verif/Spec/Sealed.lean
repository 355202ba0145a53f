import Verif.Spec.Handshake
/-
Records an observer cannot read: RFC 8446 section 5.2.
-/
namespace ATLS.Spec.Tls13
open ATLS

/-- `wire` consists of protected records only: each is the header of a record of type application_data, followed by what one of the AEADs `seals`
gives for some inner plaintext with that header as additional data. -/
inductive AllSealed (seals : Seal → Prop) : Bytes → Prop
  | nil : AllSealed seals []
  | cons (aead : Seal) (key nonce inner ct tag rest : Bytes) : seals aead → aead key nonce inner (protectedHeader inner.length) = some (ct, tag) →
      AllSealed seals rest → AllSealed seals (protectedHeader inner.length ++ ct ++ tag ++ rest)

theorem AllSealed.append {seals : Seal → Prop} {a b : Bytes} (ha : AllSealed seals a) (hb : AllSealed seals b) : AllSealed seals (a ++ b) := by
  induction ha with
  | nil => exact hb
  | cons aead key nonce inner ct tag rest h1 h2 _ ih =>
    have := AllSealed.cons aead key nonce inner ct tag _ h1 h2 ih
    simpa only [List.append_assoc] using this

end ATLS.Spec.Tls13
