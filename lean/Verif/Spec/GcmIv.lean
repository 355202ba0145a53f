import Verif.Spec.Gcm
/-
NIST SP 800-38D for initialisation vectors of every length (`Spec.Gcm` is the case of 96 bits).
-/
namespace ATLS.Spec.GcmIv
open ATLS ATLS.Spec ATLS.Spec.Gcm

/-- Section 7.1, step 2: the first counter block. -/
def firstBlock (ciph : Bytes → Bytes) (iv : Bytes) : BitVec 128 :=
  if iv.length = 12 then toBlock (iv ++ [0, 0, 0, 1])
  else ghash (toBlock (ciph (zeros 16))) (pad16 iv ++ (zeros 8 ++ beBytes 8 (iv.length * 8)))

/-- Section 7.1, steps 4-6: the tag of ciphertext `C` and additional data `A`. -/
def tag (ciph : Bytes → Bytes) (iv C A : Bytes) : Bytes :=
  let H := toBlock (ciph (zeros 16))
  let S := ghash H (pad16 A ++ pad16 C ++ beBytes 8 (A.length * 8) ++ beBytes 8 (C.length * 8))
  gctr ciph (firstBlock ciph iv) (ofBlock S)

/-- Section 7.1: GCM-AE: ciphertext and tag. -/
def encrypt (ciph : Bytes → Bytes) (iv P A : Bytes) : Bytes × Bytes :=
  let C := gctr ciph (inc32 (firstBlock ciph iv)) P
  (C, tag ciph iv C A)

/-- Section 7.2: GCM-AD: the plaintext, or nothing when the tag is wrong. -/
def decrypt (ciph : Bytes → Bytes) (iv C A T : Bytes) : Option Bytes :=
  if T = tag ciph iv C A then some (gctr ciph (inc32 (firstBlock ciph iv)) C) else none

/-- The rightmost 32 bits of the counter block do not wrap around for a message of `n` bytes. -/
def Fits (ciph : Bytes → Bytes) (iv : Bytes) (n : Nat) : Prop :=
  (firstBlock ciph iv).toNat % 2 ^ 32 + (n + 15) / 16 < 2 ^ 32

end ATLS.Spec.GcmIv
