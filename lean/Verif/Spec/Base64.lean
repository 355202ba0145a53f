import Verif.Basic
/-
RFC 4648 section 4: Base64.
-/
namespace ATLS.Spec.Base64
open ATLS

/-- Table 1 of RFC 4648: values 0..63. -/
def alphabet : List Char :=
  (List.range 26).map (fun i => Char.ofNat (65 + i)) ++ (List.range 26).map (fun i => Char.ofNat (97 + i))
    ++ (List.range 10).map (fun i => Char.ofNat (48 + i)) ++ ['+', '/']

/-- The character of the `i`-th 6-bit group (from the left) of a 24-bit group. -/
def digit (g : BitVec 24) (i : Nat) : Char := alphabet.getD (g.extractLsb' (18 - 6 * i) 6).toNat '='

/-- "The encoding process represents 24-bit groups of input bits as output strings of 4 encoded characters"; a final group of 8 or
16 bits gives two or three characters followed by padding. -/
def encode : Bytes → List Char
  | [] => []
  | [a] => [digit (a ++ 0#16) 0, digit (a ++ 0#16) 1, '=', '=']
  | [a, b] => [digit (a ++ b ++ 0#8) 0, digit (a ++ b ++ 0#8) 1, digit (a ++ b ++ 0#8) 2, '=']
  | a :: b :: c :: rest =>
    [digit (a ++ b ++ c) 0, digit (a ++ b ++ c) 1, digit (a ++ b ++ c) 2, digit (a ++ b ++ c) 3] ++ encode rest

end ATLS.Spec.Base64
