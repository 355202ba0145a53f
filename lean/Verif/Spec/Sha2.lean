import Verif.Spec.Common
/-
FIPS 180-4: SHA-256 and SHA-384, written from the standard.
-/
namespace ATLS.Spec.Sha2
open ATLS ATLS.Spec

/-- Section 4.1: Ch, Maj. -/
def Ch {n : Nat} (x y z : BitVec n) : BitVec n := (x &&& y) ^^^ (~~~x &&& z)
def Maj {n : Nat} (x y z : BitVec n) : BitVec n := (x &&& y) ^^^ (x &&& z) ^^^ (y &&& z)

/-- The parameters of one member of the family. -/
structure Params (n : Nat) where
  S0 : BitVec n → BitVec n
  S1 : BitVec n → BitVec n
  s0 : BitVec n → BitVec n
  s1 : BitVec n → BitVec n
  /-- number of rounds -/
  rounds : Nat
  /-- round constants -/
  K : Nat → BitVec n
  /-- initial hash value -/
  H : List (BitVec n)
  /-- number of digest words kept -/
  outWords : Nat

/-- Section 6.2.2 / 6.4.2 step 1: the message schedule of a 16-word block. -/
def W {n : Nat} (P : Params n) (M : Nat → BitVec n) (t : Nat) : BitVec n :=
  if _h : t < 16 then M t
  else P.s1 (W P M (t - 2)) + W P M (t - 7) + P.s0 (W P M (t - 15)) + W P M (t - 16)

/-- Steps 2 and 3: the eight working variables. -/
structure Vars (n : Nat) where
  (a b c d e f g h : BitVec n)

def step {n : Nat} (P : Params n) (M : Nat → BitVec n) (v : Vars n) (t : Nat) : Vars n :=
  let T1 := v.h + P.S1 v.e + Ch v.e v.f v.g + P.K t + W P M t
  let T2 := P.S0 v.a + Maj v.a v.b v.c
  { a := T1 + T2, b := v.a, c := v.b, d := v.c, e := v.d + T1, f := v.e, g := v.f, h := v.g }

def ofList {n : Nat} (H : List (BitVec n)) : Vars n :=
  { a := H.getD 0 0, b := H.getD 1 0, c := H.getD 2 0, d := H.getD 3 0,
    e := H.getD 4 0, f := H.getD 5 0, g := H.getD 6 0, h := H.getD 7 0 }

def toList {n : Nat} (v : Vars n) : List (BitVec n) := [v.a, v.b, v.c, v.d, v.e, v.f, v.g, v.h]

/-- The `t`-th big-endian word of a block. -/
def word (n : Nat) (block : Bytes) (t : Nat) : BitVec n :=
  BitVec.ofNat n (beNat ((block.drop (t * (n / 8))).take (n / 8)))

/-- Step 4: the intermediate hash value after one block. -/
def compress {n : Nat} (P : Params n) (H : List (BitVec n)) (block : Bytes) : List (BitVec n) :=
  let v := (List.range P.rounds).foldl (step P (word n block)) (ofList H)
  List.zipWith (· + ·) (toList v) H

/-- Section 5.1: append the bit 1, zero bits, and the bit length in `2n` bits; block size `16n` bits. -/
def pad (n : Nat) (m : Bytes) : Bytes :=
  let B := 16 * (n / 8)
  let L := 2 * (n / 8)
  m ++ [0x80#8] ++ zeros ((B - (m.length + 1 + L) % B) % B) ++ beBytes L (8 * m.length)

/-- Section 6: the digest. -/
def hash {n : Nat} (P : Params n) (m : Bytes) : Bytes :=
  let H := (blocks (16 * (n / 8)) (pad n m)).foldl (compress P) P.H
  (H.take P.outWords).flatMap fun w => beBytes (n / 8) w.toNat

/-! Constants: "the first thirty-two (sixty-four) bits of the fractional parts of the cube roots of the first sixty-four (eighty)
prime numbers", and likewise the square roots of the first eight primes (SHA-256) and of the ninth through sixteenth primes (SHA-384). -/

/-- Largest `r < 2^bits` with `r^e <= v`, by binary search. -/
def iroot (e v : Nat) : Nat → Nat → Nat
  | 0, r => r
  | b + 1, r => iroot e v b (if (r + 2 ^ b) ^ e ≤ v then r + 2 ^ b else r)

/-- First `w` bits of the fractional part of the `e`-th root of `p`. -/
def fracRoot (e w p : Nat) : Nat := iroot e (p * 2 ^ (e * w)) (w + 10) 0 % 2 ^ w

def isPrime (p : Nat) : Bool := 2 ≤ p && (List.range p).all fun d => d < 2 || p % d != 0

/-- The first eighty primes. -/
def primes : List Nat := (List.range 410).filter isPrime

/-- Section 4.1.2, 4.2.2, 5.3.3: SHA-256. -/
def P256 : Params 32 where
  S0 x := x.rotateRight 2 ^^^ x.rotateRight 13 ^^^ x.rotateRight 22
  S1 x := x.rotateRight 6 ^^^ x.rotateRight 11 ^^^ x.rotateRight 25
  s0 x := x.rotateRight 7 ^^^ x.rotateRight 18 ^^^ (x >>> 3)
  s1 x := x.rotateRight 17 ^^^ x.rotateRight 19 ^^^ (x >>> 10)
  rounds := 64
  K t := BitVec.ofNat 32 (fracRoot 3 32 (primes.getD t 0))
  H := (primes.take 8).map fun p => BitVec.ofNat 32 (fracRoot 2 32 p)
  outWords := 8

/-- Section 4.1.3, 4.2.3, 5.3.4: SHA-384. -/
def P384 : Params 64 where
  S0 x := x.rotateRight 28 ^^^ x.rotateRight 34 ^^^ x.rotateRight 39
  S1 x := x.rotateRight 14 ^^^ x.rotateRight 18 ^^^ x.rotateRight 41
  s0 x := x.rotateRight 1 ^^^ x.rotateRight 8 ^^^ (x >>> 7)
  s1 x := x.rotateRight 19 ^^^ x.rotateRight 61 ^^^ (x >>> 6)
  rounds := 80
  K t := BitVec.ofNat 64 (fracRoot 3 64 (primes.getD t 0))
  H := ((primes.drop 8).take 8).map fun p => BitVec.ofNat 64 (fracRoot 2 64 p)
  outWords := 6

/-- SHA-256. -/
def sha256 (m : Bytes) : Bytes := hash P256 m
/-- SHA-384. -/
def sha384 (m : Bytes) : Bytes := hash P384 m

end ATLS.Spec.Sha2
