import Verif.Spec.P256
import Verif.Spec.Common
import Mathlib.Data.Int.ModEq
/-
ECDSA verification over P-256 (FIPS 186-4 section 6.4).
-/
namespace ATLS.Spec.Ecdsa
open ATLS.Spec.P256

/-- The integer made of the leftmost 256 bits of the hash value (all of it when it is shorter). -/
def hashInt (hash : Bytes) : Int := beNat (hash.take 32)

/-- The signature (r, s) on the hash integer `e` is valid for the public key with affine coordinates `Q`: the key is a
finite point of the curve, 1 <= r, s < n, and with w = 1/s mod n the point (e w) G + (r w) Q is finite and its x coordinate
is r modulo n. -/
def Accepts (Q : Int × Int) (r s e : Int) : Prop :=
  ∃ P : Group, P ≠ 0 ∧ coords P = Q ∧ 1 ≤ r ∧ r < n ∧ 1 ≤ s ∧ s < n ∧
    ∃ w : Int, w * s ≡ 1 [ZMOD n] ∧ (e * w) • G + (r * w) • P ≠ 0 ∧ (coords ((e * w) • G + (r * w) • P)).1 ≡ r [ZMOD n]

end ATLS.Spec.Ecdsa
