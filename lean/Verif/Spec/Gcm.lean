import Verif.Spec.Common
import Verif.Spec.Aes
/-
NIST SP 800-38D: GHASH, GCTR and GCM-AE / GCM-AD for 96-bit initialisation vectors and 128-bit tags.
A block is a `BitVec 128` whose leftmost bit `x_0` of the standard is the most significant bit.
-/
namespace ATLS.Spec.Gcm
open ATLS ATLS.Spec

/-- The block with the given 16 bytes. -/
def toBlock (b : Bytes) : BitVec 128 := BitVec.ofNat 128 (beNat b)

/-- The 16 bytes of a block. -/
def ofBlock (x : BitVec 128) : Bytes := beBytes 16 x.toNat

/-- Section 6.3, Algorithm 1: after `i` steps, `(Z_i, V_i)` of the product `X • Y`. -/
def mulState (X Y : BitVec 128) : Nat → BitVec 128 × BitVec 128
  | 0 => (0#128, Y)
  | i + 1 =>
    let (Z, V) := mulState X Y i
    (if X.getMsbD i then Z ^^^ V else Z,
     if V.getLsbD 0 then (V >>> 1) ^^^ (0xe1#128 <<< 120) else V >>> 1)

/-- `X • Y`. -/
def mul (X Y : BitVec 128) : BitVec 128 := (mulState X Y 128).1

/-- Section 6.4: GHASH of a string of complete blocks. -/
def ghash (H : BitVec 128) (x : Bytes) : BitVec 128 :=
  (blocks 16 x).foldl (fun Y b => mul (Y ^^^ toBlock b) H) 0#128

/-- Section 6.2: increment the rightmost 32 bits modulo 2^32. -/
def inc32 (x : BitVec 128) : BitVec 128 := x.extractLsb' 32 96 ++ (x.setWidth 32 + 1#32)

/-- Section 6.5: GCTR with block cipher `ciph` on the blocks of a string, the last one possibly incomplete. -/
def gctrBlocks (ciph : Bytes → Bytes) : BitVec 128 → List Bytes → Bytes
  | _, [] => []
  | CB, x :: xs => xorBytes x (ciph (ofBlock CB)) ++ gctrBlocks ciph (inc32 CB) xs

def gctr (ciph : Bytes → Bytes) (ICB : BitVec 128) (x : Bytes) : Bytes := gctrBlocks ciph ICB (chunks 16 x)

/-- Zero bytes up to a multiple of 16. -/
def pad16 (x : Bytes) : Bytes := x ++ zeros ((16 - x.length % 16) % 16)

/-- Section 7.1, steps 1-6: the tag of ciphertext `C` and additional data `A`. -/
def tag (ciph : Bytes → Bytes) (iv C A : Bytes) : Bytes :=
  let H := toBlock (ciph (zeros 16))
  let J0 := toBlock (iv ++ [0, 0, 0, 1])
  let S := ghash H (pad16 A ++ pad16 C ++ beBytes 8 (A.length * 8) ++ beBytes 8 (C.length * 8))
  gctr ciph J0 (ofBlock S)

/-- Section 7.1: GCM-AE with a 96-bit IV: ciphertext and tag. -/
def encrypt (ciph : Bytes → Bytes) (iv P A : Bytes) : Bytes × Bytes :=
  let J0 := toBlock (iv ++ [0, 0, 0, 1])
  let C := gctr ciph (inc32 J0) P
  (C, tag ciph iv C A)

/-- Section 7.2: GCM-AD with a 96-bit IV: the plaintext, or nothing when the tag is wrong. -/
def decrypt (ciph : Bytes → Bytes) (iv C A T : Bytes) : Option Bytes :=
  let J0 := toBlock (iv ++ [0, 0, 0, 1])
  if T = tag ciph iv C A then some (gctr ciph (inc32 J0) C) else none

end ATLS.Spec.Gcm
