import Verif.Basic
/-
Model of `anothertls/src/crypto/aes/cipher.rs`.
The state `[u8; 16]` and the words `[u8; 4]` are lists; reads use `getD` (every index used is in range for these fixed sizes).
-/
namespace ATLS.Model.Aes
open ATLS

/-- crypto/aes/cipher.rs:7-72 `SBOX`. -/
def SBOX : List (List Byte) :=
  [
   [0x63, 0x7c, 0x77, 0x7b, 0xf2, 0x6b, 0x6f, 0xc5, 0x30, 0x01, 0x67, 0x2b, 0xfe, 0xd7, 0xab, 0x76],
   [0xca, 0x82, 0xc9, 0x7d, 0xfa, 0x59, 0x47, 0xf0, 0xad, 0xd4, 0xa2, 0xaf, 0x9c, 0xa4, 0x72, 0xc0],
   [0xb7, 0xfd, 0x93, 0x26, 0x36, 0x3f, 0xf7, 0xcc, 0x34, 0xa5, 0xe5, 0xf1, 0x71, 0xd8, 0x31, 0x15],
   [0x04, 0xc7, 0x23, 0xc3, 0x18, 0x96, 0x05, 0x9a, 0x07, 0x12, 0x80, 0xe2, 0xeb, 0x27, 0xb2, 0x75],
   [0x09, 0x83, 0x2c, 0x1a, 0x1b, 0x6e, 0x5a, 0xa0, 0x52, 0x3b, 0xd6, 0xb3, 0x29, 0xe3, 0x2f, 0x84],
   [0x53, 0xd1, 0x00, 0xed, 0x20, 0xfc, 0xb1, 0x5b, 0x6a, 0xcb, 0xbe, 0x39, 0x4a, 0x4c, 0x58, 0xcf],
   [0xd0, 0xef, 0xaa, 0xfb, 0x43, 0x4d, 0x33, 0x85, 0x45, 0xf9, 0x02, 0x7f, 0x50, 0x3c, 0x9f, 0xa8],
   [0x51, 0xa3, 0x40, 0x8f, 0x92, 0x9d, 0x38, 0xf5, 0xbc, 0xb6, 0xda, 0x21, 0x10, 0xff, 0xf3, 0xd2],
   [0xcd, 0x0c, 0x13, 0xec, 0x5f, 0x97, 0x44, 0x17, 0xc4, 0xa7, 0x7e, 0x3d, 0x64, 0x5d, 0x19, 0x73],
   [0x60, 0x81, 0x4f, 0xdc, 0x22, 0x2a, 0x90, 0x88, 0x46, 0xee, 0xb8, 0x14, 0xde, 0x5e, 0x0b, 0xdb],
   [0xe0, 0x32, 0x3a, 0x0a, 0x49, 0x06, 0x24, 0x5c, 0xc2, 0xd3, 0xac, 0x62, 0x91, 0x95, 0xe4, 0x79],
   [0xe7, 0xc8, 0x37, 0x6d, 0x8d, 0xd5, 0x4e, 0xa9, 0x6c, 0x56, 0xf4, 0xea, 0x65, 0x7a, 0xae, 0x08],
   [0xba, 0x78, 0x25, 0x2e, 0x1c, 0xa6, 0xb4, 0xc6, 0xe8, 0xdd, 0x74, 0x1f, 0x4b, 0xbd, 0x8b, 0x8a],
   [0x70, 0x3e, 0xb5, 0x66, 0x48, 0x03, 0xf6, 0x0e, 0x61, 0x35, 0x57, 0xb9, 0x86, 0xc1, 0x1d, 0x9e],
   [0xe1, 0xf8, 0x98, 0x11, 0x69, 0xd9, 0x8e, 0x94, 0x9b, 0x1e, 0x87, 0xe9, 0xce, 0x55, 0x28, 0xdf],
   [0x8c, 0xa1, 0x89, 0x0d, 0xbf, 0xe6, 0x42, 0x68, 0x41, 0x99, 0x2d, 0x0f, 0xb0, 0x54, 0xbb, 0x16]]

/-- crypto/aes/cipher.rs:73-138 `INV_SBOX`. -/
def INV_SBOX : List (List Byte) :=
  [
   [0x52, 0x09, 0x6a, 0xd5, 0x30, 0x36, 0xa5, 0x38, 0xbf, 0x40, 0xa3, 0x9e, 0x81, 0xf3, 0xd7, 0xfb],
   [0x7c, 0xe3, 0x39, 0x82, 0x9b, 0x2f, 0xff, 0x87, 0x34, 0x8e, 0x43, 0x44, 0xc4, 0xde, 0xe9, 0xcb],
   [0x54, 0x7b, 0x94, 0x32, 0xa6, 0xc2, 0x23, 0x3d, 0xee, 0x4c, 0x95, 0x0b, 0x42, 0xfa, 0xc3, 0x4e],
   [0x08, 0x2e, 0xa1, 0x66, 0x28, 0xd9, 0x24, 0xb2, 0x76, 0x5b, 0xa2, 0x49, 0x6d, 0x8b, 0xd1, 0x25],
   [0x72, 0xf8, 0xf6, 0x64, 0x86, 0x68, 0x98, 0x16, 0xd4, 0xa4, 0x5c, 0xcc, 0x5d, 0x65, 0xb6, 0x92],
   [0x6c, 0x70, 0x48, 0x50, 0xfd, 0xed, 0xb9, 0xda, 0x5e, 0x15, 0x46, 0x57, 0xa7, 0x8d, 0x9d, 0x84],
   [0x90, 0xd8, 0xab, 0x00, 0x8c, 0xbc, 0xd3, 0x0a, 0xf7, 0xe4, 0x58, 0x05, 0xb8, 0xb3, 0x45, 0x06],
   [0xd0, 0x2c, 0x1e, 0x8f, 0xca, 0x3f, 0x0f, 0x02, 0xc1, 0xaf, 0xbd, 0x03, 0x01, 0x13, 0x8a, 0x6b],
   [0x3a, 0x91, 0x11, 0x41, 0x4f, 0x67, 0xdc, 0xea, 0x97, 0xf2, 0xcf, 0xce, 0xf0, 0xb4, 0xe6, 0x73],
   [0x96, 0xac, 0x74, 0x22, 0xe7, 0xad, 0x35, 0x85, 0xe2, 0xf9, 0x37, 0xe8, 0x1c, 0x75, 0xdf, 0x6e],
   [0x47, 0xf1, 0x1a, 0x71, 0x1d, 0x29, 0xc5, 0x89, 0x6f, 0xb7, 0x62, 0x0e, 0xaa, 0x18, 0xbe, 0x1b],
   [0xfc, 0x56, 0x3e, 0x4b, 0xc6, 0xd2, 0x79, 0x20, 0x9a, 0xdb, 0xc0, 0xfe, 0x78, 0xcd, 0x5a, 0xf4],
   [0x1f, 0xdd, 0xa8, 0x33, 0x88, 0x07, 0xc7, 0x31, 0xb1, 0x12, 0x10, 0x59, 0x27, 0x80, 0xec, 0x5f],
   [0x60, 0x51, 0x7f, 0xa9, 0x19, 0xb5, 0x4a, 0x0d, 0x2d, 0xe5, 0x7a, 0x9f, 0x93, 0xc9, 0x9c, 0xef],
   [0xa0, 0xe0, 0x3b, 0x4d, 0xae, 0x2a, 0xf5, 0xb0, 0xc8, 0xeb, 0xbb, 0x3c, 0x83, 0x53, 0x99, 0x61],
   [0x17, 0x2b, 0x04, 0x7e, 0xba, 0x77, 0xd6, 0x26, 0xe1, 0x69, 0x14, 0x63, 0x55, 0x21, 0x0c, 0x7d]]

/-- crypto/aes/cipher.rs:142-146 `Blocksize` (the discriminant is the key size in bits). -/
inductive Blocksize where
  | B128
  | B192
  | B256
  deriving DecidableEq, Repr

/-- crypto/aes/cipher.rs:219-220: `blocksize as usize` -/
def Blocksize.bits : Blocksize → Nat
  | .B128 => 128
  | .B192 => 192
  | .B256 => 256

/-- crypto/aes/cipher.rs:149-156 `Blocksize::new`. -/
def Blocksize.new (u : Nat) : Option Blocksize :=
  if u = 128 then some .B128 else if u = 192 then some .B192 else if u = 256 then some .B256 else none

/-- The table lookup `SBOX[(b >> 4) & 0xf][b & 0xf]` (crypto/aes/cipher.rs:271, 286). -/
def sub (tbl : List (List Byte)) (b : Byte) : Byte :=
  (tbl.getD ((b >>> 4) &&& 0xf#8).toNat []).getD (b &&& 0xf#8).toNat 0

/-- crypto/aes/cipher.rs:251-267 `gmult`: one iteration of the loop on `(a, b, p)`. -/
def gmultStep (s : Byte × Byte × Byte) : Byte × Byte × Byte :=
  let (a, b, p) := s
  let p := if b &&& 1#8 ≠ 0#8 then p ^^^ a else p
  let hbs := a &&& 0x80#8
  let a := a <<< 1
  let a := if hbs ≠ 0#8 then a ^^^ 0x1b#8 else a
  (a, b >>> 1, p)

/-- crypto/aes/cipher.rs:251-267 `gmult`. -/
def gmult (a b : Byte) : Byte := (Nat.repeat gmultStep 8 (a, b, 0#8)).2.2

/-- crypto/aes/cipher.rs:269-273 `sub_word`. -/
def subWord (w : Bytes) : Bytes := w.map (sub SBOX)

/-- crypto/aes/cipher.rs:275-281 `rot_word`. -/
def rotWord (w : Bytes) : Bytes := [w.getD 1 0, w.getD 2 0, w.getD 3 0, w.getD 0 0]

/-- crypto/aes/cipher.rs:283-288 `sub_bytes`. -/
def subBytes (s : Bytes) : Bytes := s.map (sub SBOX)

/-- crypto/aes/cipher.rs:290-295 `inv_sub_bytes`. -/
def invSubBytes (s : Bytes) : Bytes := s.map (sub INV_SBOX)

/-- crypto/aes/cipher.rs:297-353: The assignment `s[i] = s[j]`. -/
def mv (s : Bytes) (i j : Nat) : Bytes := s.set i (s.getD j 0)

/-- crypto/aes/cipher.rs:297-323 `shift_rows`, assignment by assignment. -/
def shiftRows (s : Bytes) : Bytes :=
  let tmp := s.getD 1 0
  let s := mv (mv (mv s 1 5) 5 9) 9 13
  let s := s.set 13 tmp
  let tmp := s.getD 2 0
  let s := (mv s 2 10).set 10 tmp
  let tmp := s.getD 6 0
  let s := (mv s 6 14).set 14 tmp
  let tmp := s.getD 11 0
  let s := mv (mv (mv s 11 7) 7 3) 3 15
  s.set 15 tmp

/-- crypto/aes/cipher.rs:325-351 `inv_shift_rows`, assignment by assignment. -/
def invShiftRows (s : Bytes) : Bytes :=
  let tmp := s.getD 9 0
  let s := mv (mv (mv s 9 5) 5 1) 1 13
  let s := s.set 13 tmp
  let tmp := s.getD 2 0
  let s := (mv s 2 10).set 10 tmp
  let tmp := s.getD 6 0
  let s := (mv s 6 14).set 14 tmp
  let tmp := s.getD 3 0
  let s := mv (mv (mv s 3 7) 7 11) 11 15
  s.set 15 tmp

/-- crypto/aes/cipher.rs:354-362: the coefficient matrix. -/
def mixMatrix (inverse : Bool) : Bytes :=
  if inverse then
    [0xE, 0xB, 0xD, 0x9, 0x9, 0xE, 0xB, 0xD, 0xD, 0x9, 0xE, 0xB, 0xB, 0xD, 0x9, 0xE]
  else
    [0x2, 0x3, 0x1, 0x1, 0x1, 0x2, 0x3, 0x1, 0x1, 0x1, 0x2, 0x3, 0x3, 0x1, 0x1, 0x2]

/-- crypto/aes/cipher.rs:353-378 `mix_columns`: entry `row + 4 * column` is the XOR over `matrix_column` (outer loop over columns, then
rows). -/
def mixColumns (inverse : Bool) (s : Bytes) : Bytes :=
  (List.range 4).flatMap fun column => (List.range 4).map fun row =>
    (List.range 4).foldl (fun acc mc =>
      acc ^^^ gmult ((mixMatrix inverse).getD (row * 4 + mc) 0) (s.getD (mc + 4 * column) 0)) 0#8

/-- crypto/aes/cipher.rs:380-386 `add_round_key`. -/
def addRoundKey (ek : List Bytes) (round : Nat) (s : Bytes) : Bytes :=
  (List.range 4).flatMap fun x => (List.range 4).map fun y =>
    s.getD (x * 4 + y) 0 ^^^ (ek.getD (round * 4 + x) []).getD y 0

/-- crypto/aes/cipher.rs:222 `rcon`. -/
def rcon : Bytes := [0x01, 0x02, 0x04, 0x08, 0x10, 0x20, 0x40, 0x80, 0x1B, 0x36]

/-- crypto/aes/cipher.rs:232-246: one iteration of the key expansion. `rcon[i / nk - 1]` is in range for the three key sizes. -/
def expandStep (nk : Nat) (ek : List Bytes) (i : Nat) : List Bytes :=
  let temp := ek.getD (i - 1) []
  let temp :=
    if i % nk = 0 then
      let t := subWord (rotWord temp)
      t.set 0 (t.getD 0 0 ^^^ rcon.getD (i / nk - 1) 0)
    else if nk > 6 ∧ i % nk = 4 then subWord temp
    else temp
  ek.set i (xorBytes (ek.getD (i - nk) []) temp)

/-- crypto/aes/cipher.rs:216-249 `get_expanded_key`. The reads `key[(i * 4) + j]` panic when the key is too short. -/
def expandedKey {ε : Type} (key : Bytes) (bs : Blocksize) : Res ε (List Bytes) :=
  let nk := bs.bits / 32
  let nr := bs.bits / 32 + 6
  if key.length < 4 * nk then .panic
  else
    let ek := (List.range 60).map fun i => if i < nk then (key.drop (i * 4)).take 4 else zeros 4
    .ok ((List.range' nk (4 * (nr + 1) - nk)).foldl (expandStep nk) ek)

/-- crypto/aes/cipher.rs:160-164 `AES` (the scratch field `state` is a local here). -/
structure AES where
  blocksize : Blocksize
  ek : List Bytes

/-- crypto/aes/cipher.rs:167-173 `AES::init`. -/
def AES.init {ε : Type} (key : Bytes) (bs : Blocksize) : Res ε AES := do
  let ek ← expandedKey key bs
  .ok { blocksize := bs, ek := ek }

/-- crypto/aes/cipher.rs:175-194 `AES::encrypt`. -/
def AES.encrypt (c : AES) (input : Bytes) : Bytes :=
  let rounds := c.blocksize.bits / 32 + 6
  (List.range' 1 rounds).foldl (fun s round =>
    let s := shiftRows (subBytes s)
    let s := if round < rounds then mixColumns false s else s
    addRoundKey c.ek round s) (addRoundKey c.ek 0 input)

/-- crypto/aes/cipher.rs:196-215 `AES::decrypt`. -/
def AES.decrypt (c : AES) (input : Bytes) : Bytes :=
  let rounds := c.blocksize.bits / 32 + 6
  (List.range rounds).reverse.foldl (fun s round =>
    let s := invSubBytes (invShiftRows s)
    let s := addRoundKey c.ek round s
    if round ≥ 1 then mixColumns true s else s) (addRoundKey c.ek rounds input)

end ATLS.Model.Aes
