import Verif.Spec.Common
/-
Hexadecimal text.
-/
namespace ATLS.Spec.Hex
open ATLS

/-- The value of a hexadecimal digit in lower or upper case. -/
def value (c : Byte) : Option Nat :=
  match (ascii "0123456789abcdef").idxOf? c with
  | some n => some n
  | none => (ascii "0123456789ABCDEF").idxOf? c

/-- `text` is two hexadecimal digits, the higher first, for every byte of `l`. -/
inductive IsText : Bytes → Bytes → Prop
  | nil : IsText [] []
  | cons {a b v : Byte} {text l : Bytes} : value a = some (v.toNat / 16) → value b = some (v.toNat % 16) → IsText text l → IsText (a :: b :: text) (v :: l)

end ATLS.Spec.Hex
