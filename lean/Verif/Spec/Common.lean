import Verif.Basic
/-
Notation shared by the specifications: positional value of byte strings, fixed-size encodings, splitting into blocks.
-/
namespace ATLS.Spec
open ATLS

/-- Big-endian positional value of a byte string. -/
def beNat : Bytes → Nat := List.foldl (fun acc b => acc * 256 + b.toNat) 0

/-- Little-endian positional value of a byte string. -/
def leNat : Bytes → Nat
  | [] => 0
  | b :: bs => b.toNat + 256 * leNat bs

/-- The `n`-byte big-endian encoding of a number (modulo `256^n`). -/
def beBytes : Nat → Nat → Bytes
  | 0, _ => []
  | n + 1, v => BitVec.ofNat 8 (v / 256 ^ n) :: beBytes n v

/-- The `n`-byte little-endian encoding of a number (modulo `256^n`). -/
def leBytes : Nat → Nat → Bytes
  | 0, _ => []
  | n + 1, v => BitVec.ofNat 8 v :: leBytes n (v / 256)

/-- Complete `B`-byte blocks of a string (a trailing incomplete block is dropped). -/
def blocks (B : Nat) (m : Bytes) : List Bytes :=
  (List.range (m.length / B)).map fun i => (m.drop (i * B)).take B

/-- `B`-byte blocks of a string, the last one possibly shorter. -/
def chunks (B : Nat) (m : Bytes) : List Bytes :=
  (List.range ((m.length + (B - 1)) / B)).map fun i => (m.drop (i * B)).take B

end ATLS.Spec
