import Verif.Spec.Common
import Verif.Proof.Primes
import Mathlib.Algebra.Field.ZMod
/-
The function X25519 of RFC 7748 section 5, over the field with 2^255 - 19 elements.
-/
namespace ATLS.Spec.X25519

/-- The prime 2^255 - 19. -/
def p : ℕ := 2 ^ 255 - 19

instance : Fact p.Prime := ⟨Primes.p25519⟩

/-- `decodeScalar25519`: clear the three low bits and the top bit, set bit 254. -/
def decodeScalar (k : Bytes) : ℕ :=
  leNat ((k.set 0 (k.getD 0 0 &&& 248)).set 31 ((k.getD 31 0 &&& 127) ||| 64))

/-- `decodeUCoordinate`: little-endian, the top bit of the last byte is ignored. -/
def decodeU (u : Bytes) : ZMod p := leNat (u.set 31 (u.getD 31 0 &&& 127))

/-- `encodeUCoordinate`: the canonical little-endian representation. -/
def encodeU (u : ZMod p) : Bytes := leBytes 32 u.val

/-- The working variables of the ladder. -/
structure State where
  x2 : ZMod p
  z2 : ZMod p
  x3 : ZMod p
  z3 : ZMod p
  swap : Bool

/-- `cswap`. -/
def cswap {α : Type} (swap : Bool) (a b : α) : α × α := if swap then (b, a) else (a, b)

/-- One iteration of the loop "For t = bits-1 down to 0". -/
def step (k : ℕ) (x1 : ZMod p) (s : State) (t : ℕ) : State :=
  let kt := k.testBit t
  let swap := s.swap ^^ kt
  let (x2, x3) := cswap swap s.x2 s.x3
  let (z2, z3) := cswap swap s.z2 s.z3
  let A := x2 + z2
  let AA := A ^ 2
  let B := x2 - z2
  let BB := B ^ 2
  let E := AA - BB
  let C := x3 + z3
  let D := x3 - z3
  let DA := D * A
  let CB := C * B
  { x3 := (DA + CB) ^ 2, z3 := x1 * (DA - CB) ^ 2, x2 := AA * BB, z2 := E * (AA + 121665 * E), swap := kt }

/-- The Montgomery ladder on 255 bits, result x2 / z2 (0 when z2 = 0). -/
def ladder (k : ℕ) (u : ZMod p) : ZMod p :=
  let s := (List.range 255).reverse.foldl (step k u) ⟨1, 0, u, 1, false⟩
  let (x2, _) := cswap s.swap s.x2 s.x3
  let (z2, _) := cswap s.swap s.z2 s.z3
  x2 * z2 ^ (p - 2)

/-- X25519(k, u). -/
def x25519 (k u : Bytes) : Bytes := encodeU (ladder (decodeScalar k) (decodeU u))

end ATLS.Spec.X25519
