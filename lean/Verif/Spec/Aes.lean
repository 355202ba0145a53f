import Verif.Basic
/-
FIPS 197 (AES), written from the standard. The state is a function of row and column; bytes are polynomials over GF(2) modulo
x^8 + x^4 + x^3 + x + 1.
-/
namespace ATLS.Spec.Aes
open ATLS

/-- Section 4.2.1: multiplication by x. -/
def xtime (b : Byte) : Byte := if b.getLsbD 7 then (b <<< 1) ^^^ 0x1b#8 else b <<< 1

/-- `b · x^i`. -/
def xpow (b : Byte) : Nat → Byte
  | 0 => b
  | i + 1 => xtime (xpow b i)

/-- Section 4.2: the product of two bytes is the sum of `b · x^i` over the set bits `i` of `a`. -/
def mul (a b : Byte) : Byte :=
  (List.range 8).foldl (fun acc i => if a.getLsbD i then acc ^^^ xpow b i else acc) 0#8

/-- Section 4.4: the multiplicative inverse, the byte `b` with `a · b = 1`; zero (which has none) is mapped to zero. -/
def inv (a : Byte) : Byte :=
  (((List.range 256).map (BitVec.ofNat 8)).find? fun b => mul a b = 1#8).getD 0#8

/-- Section 5.1.1: the affine transformation `b'_i = b_i + b_{i+4} + b_{i+5} + b_{i+6} + b_{i+7} + c_i` (indices mod 8), `c = 0x63`.
Bit `i` of `b.rotateRight k` is `b_{i+k}`. -/
def affine (b : Byte) : Byte :=
  b ^^^ b.rotateRight 4 ^^^ b.rotateRight 5 ^^^ b.rotateRight 6 ^^^ b.rotateRight 7 ^^^ 0x63#8

/-- Section 5.1.1: the S-box. -/
def sbox (b : Byte) : Byte := affine (inv b)

/-- Section 3.4: the state, `s r c`. -/
abbrev State := Nat → Nat → Byte

/-- `s[r, c] = in[r + 4c]`. -/
def load (inp : Bytes) : State := fun r c => inp.getD (r + 4 * c) 0

/-- `out[r + 4c] = s[r, c]`. -/
def store (s : State) : Bytes := (List.range 16).map fun i => s (i % 4) (i / 4)

/-- Section 5.1.1 SubBytes. -/
def subBytes (s : State) : State := fun r c => sbox (s r c)

/-- Section 5.1.2 ShiftRows: `s'[r, c] = s[r, (c + r) mod 4]`. -/
def shiftRows (s : State) : State := fun r c => s r ((c + r) % 4)

/-- Section 5.1.3 MixColumns. -/
def mixColumns (s : State) : State := fun r c =>
  mul 2 (s (r % 4) c) ^^^ mul 3 (s ((r + 1) % 4) c) ^^^ s ((r + 2) % 4) c ^^^ s ((r + 3) % 4) c

/-- Words of the key schedule. -/
abbrev Word := Nat → Byte

def subWord (w : Word) : Word := fun j => sbox (w j)
def rotWord (w : Word) : Word := fun j => w ((j + 1) % 4)

/-- Section 5.2: `Rcon[i] = (x^(i-1), 0, 0, 0)`. -/
def rcon (i : Nat) : Word := fun j => if j = 0 then xpow 1 (i - 1) else 0

/-- Section 5.2, Algorithm 2: the key schedule words for a key of `Nk` words. -/
def keyWord (Nk : Nat) (key : Bytes) (i : Nat) : Word :=
  if _h : i < Nk ∨ Nk = 0 then fun j => key.getD (4 * i + j) 0
  else
    let temp := keyWord Nk key (i - 1)
    let temp : Word :=
      if i % Nk = 0 then fun j => subWord (rotWord temp) j ^^^ rcon (i / Nk) j
      else if Nk > 6 ∧ i % Nk = 4 then subWord temp
      else temp
    fun j => keyWord Nk key (i - Nk) j ^^^ temp j
termination_by i
decreasing_by all_goals omega

/-- Section 5.1.4 AddRoundKey: column `c` of the state is added to word `4 * round + c`. -/
def addRoundKey (w : Nat → Word) (round : Nat) (s : State) : State := fun r c => s r c ^^^ w (4 * round + c) r

/-- Section 5.1, Algorithm 1: CIPHER with `Nr` rounds. -/
def cipher (Nr : Nat) (w : Nat → Word) (inp : Bytes) : Bytes :=
  let s := addRoundKey w 0 (load inp)
  let s := (List.range' 1 (Nr - 1)).foldl (fun s round => addRoundKey w round (mixColumns (shiftRows (subBytes s)))) s
  store (addRoundKey w Nr (shiftRows (subBytes s)))

/-- AES-128, AES-192 and AES-256, chosen by the key length (16, 24 or 32 bytes): `Nk = len / 4`, `Nr = Nk + 6`. -/
def aes (key : Bytes) (block : Bytes) : Bytes :=
  cipher (key.length / 4 + 6) (keyWord (key.length / 4) key) block

end ATLS.Spec.Aes
