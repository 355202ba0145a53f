import Verif.Basic
/-
Model of `anothertls/src/hash/sha256.rs` and `anothertls/src/hash/sha384.rs`.
The two files are the same program at two word sizes; the buffering code (`update`, `padd_input`, `finalize`)
is modelled once, parameterised by the constants in which the files differ (`ShaCfg`).
-/
namespace ATLS.Model
open ATLS

/-- The eight working words `a..h` / the `state` array (sha256.rs:42, 84-91; sha384.rs:42, 94-101). -/
structure W8 (n : Nat) where
  a : BitVec n
  b : BitVec n
  c : BitVec n
  d : BitVec n
  e : BitVec n
  f : BitVec n
  g : BitVec n
  h : BitVec n
  deriving DecidableEq, Repr

/-- hash/sha256.rs, sha384.rs: `state[i]` -/
def W8.get {n : Nat} (s : W8 n) : Nat → BitVec n
  | 0 => s.a
  | 1 => s.b
  | 2 => s.c
  | 3 => s.d
  | 4 => s.e
  | 5 => s.f
  | 6 => s.g
  | _ => s.h

/-- sha256.rs:14-16, sha384.rs:14-16 `ch`. -/
def ch {n : Nat} (x y z : BitVec n) : BitVec n := (x &&& y) ^^^ ((~~~x) &&& z)
/-- sha256.rs:17-19, sha384.rs:17-19 `maj`. -/
def maj {n : Nat} (x y z : BitVec n) : BitVec n := (x &&& y) ^^^ (x &&& z) ^^^ (y &&& z)

/-- sha256.rs:34-37, sha384.rs:34-37 `add`: `overflowing_add`, i.e. addition modulo 2^n. -/
def add {n : Nat} (x y : BitVec n) : BitVec n := x + y

/-- hash/sha256.rs, sha384.rs: The functions and constants of one of the two files. -/
structure RoundCfg (n : Nat) where
  bsig0 : BitVec n → BitVec n
  bsig1 : BitVec n → BitVec n
  ssig0 : BitVec n → BitVec n
  ssig1 : BitVec n → BitVec n
  k : List (BitVec n)

/-- One iteration of the round loop after `w[t]` is known (sha256.rs:108-117, sha384.rs:118-127). -/
def roundStep {n : Nat} (C : RoundCfg n) (s : W8 n) (kt wt : BitVec n) : W8 n :=
  let t1 := add s.h (add (C.bsig1 s.e) (add (ch s.e s.f s.g) (add kt wt)))
  let t2 := add (C.bsig0 s.a) (maj s.a s.b s.c)
  { a := add t1 t2, b := s.a, c := s.b, d := s.c, e := add s.d t1, f := s.e, g := s.f, h := s.g }

/-- The inner `while wcount >= 0` loop (sha256.rs:95-100, sha384.rs:105-110): one word from `n/8` bytes, most significant
first, by `w[t] += byte << wcount`. -/
def loadWord (n : Nat) (bytes : Bytes) : BitVec n :=
  bytes.zipIdx.foldl (fun (acc : BitVec n) (p : Byte × Nat) => acc + (p.1.setWidth n) <<< (n - 8 - 8 * p.2)) 0

/-- `w[t]` for the current loop index (sha256.rs:94-106, sha384.rs:104-116). `w` holds the words computed so far, newest first,
so `w[t-2]` is entry 1, `w[t-7]` entry 6, `w[t-15]` entry 14 and `w[t-16]` entry 15.
(The Rust array has 80 entries written in increasing index order; only entries below `t` are read.) -/
def nextW {n : Nat} (C : RoundCfg n) (input : Bytes) (t : Nat) (w : List (BitVec n)) : BitVec n :=
  if t ≤ 15 then loadWord n ((input.drop (t * (n / 8))).take (n / 8))
  else add (C.ssig1 (w.getD 1 0)) (add (w.getD 6 0) (add (C.ssig0 (w.getD 14 0)) (w.getD 15 0)))

/-- hash/sha256.rs:93, sha384.rs:103: The `for t in 0..=…` loop over the remaining round constants. -/
def roundLoop {n : Nat} (C : RoundCfg n) (input : Bytes) : List (BitVec n) → Nat → List (BitVec n) → W8 n → W8 n
  | [], _, _, s => s
  | kt :: ks, t, w, s =>
    let wt := nextW C input t w
    roundLoop C input ks (t + 1) (wt :: w) (roundStep C s kt wt)

/-- sha256.rs:67-129, sha384.rs:66-139 `calc_round` as a function of the input block and the state. -/
def calcRound {n : Nat} (C : RoundCfg n) (input : Bytes) (s : W8 n) : W8 n :=
  let r := roundLoop C input C.k 0 [] s
  { a := add s.a r.a, b := add s.b r.b, c := add s.c r.c, d := add s.d r.d,
    e := add s.e r.e, f := add s.f r.f, g := add s.g r.g, h := add s.h r.h }

/-- hash/sha256.rs, sha384.rs: Constants in which the buffering code of the two files differs. -/
structure ShaCfg (n : Nat) extends RoundCfg n where
  /-- block size: 64 / 128 -/
  block : Nat
  /-- padding shorter than this is emitted first: 9 / 17 -/
  minPad : Nat
  /-- exclusive bound of the length loop `for i in 1..8` / `for i in 1..16` -/
  lenEnd : Nat
  /-- digest size: 32 / 48 -/
  outLen : Nat
  init : W8 n

/-- sha256.rs:39-44, sha384.rs:39-44: `input`, `input_len`, `state`, `length` (`u128`, cannot overflow in practice: modelled by `Nat`). -/
structure Sha (n : Nat) where
  input : Bytes
  inputLen : Nat
  state : W8 n
  length : Nat
  deriving DecidableEq, Repr

/-- sha256.rs:132-142, sha384.rs:143-159 `new`. -/
def Sha.new {n : Nat} (C : ShaCfg n) : Sha n :=
  { input := zeros C.block, inputLen := 0, state := C.init, length := 0 }

/-- One byte of the `update` loop (sha256.rs:146-153, sha384.rs:163-170). -/
def Sha.push {n : Nat} (C : ShaCfg n) (s : Sha n) (b : Byte) : Sha n :=
  let input := s.input.set s.inputLen b
  let inputLen := s.inputLen + 1
  if inputLen = C.block then
    { s with input := input, inputLen := 0, state := calcRound C.toRoundCfg input s.state }
  else { s with input := input, inputLen := inputLen }

/-- sha256.rs:143-154, sha384.rs:160-171 `update`. -/
def Sha.update {n : Nat} (C : ShaCfg n) (s : Sha n) (buf : Bytes) : Sha n :=
  buf.foldl (Sha.push C) { s with length := s.length + buf.length }

/-- The length loop `for i in 1..lenEnd { padding[padding_length - i] = ((input_len * 8) >> ((i - 1) * 8)) as u8 }`
(sha256.rs:60-62, sha384.rs:60-62). -/
def lenLoop (lenEnd padLen bitLen : Nat) (padding : Bytes) : Bytes :=
  (List.range' 1 (lenEnd - 1)).foldl
    (fun p i => p.set (padLen - i) (BitVec.ofNat 8 (bitLen >>> ((i - 1) * 8)))) padding

/-- sha256.rs:47-66, sha384.rs:47-65 `padd_input`. -/
def Sha.paddInput {n : Nat} (C : ShaCfg n) (s : Sha n) : Sha n :=
  let inputLen := s.length
  let padLen := C.block - inputLen % C.block
  let padding := zeros C.block
  if padLen > 0 then
    let padding := padding.set 0 0x80#8
    if padLen < C.minPad then
      let s := s.update C (padding.take padLen)
      let padLen := C.block
      let padding := padding.set 0 0#8
      let padding := lenLoop C.lenEnd padLen (inputLen * 8) padding
      s.update C (padding.take padLen)
    else
      let padding := lenLoop C.lenEnd padLen (inputLen * 8) padding
      s.update C (padding.take padLen)
  else s

/-- sha256.rs:156-173, sha384.rs:173-186 `finalize` (works on a copy, so the receiver is unchanged). -/
def Sha.finalize {n : Nat} (C : ShaCfg n) (s : Sha n) : Bytes :=
  let copy := s.paddInput C
  (List.range C.outLen).map fun i =>
    (copy.state.get (i / (n / 8)) >>> (8 * (n / 8 - 1 - i % (n / 8)))).setWidth 8

/-! ### sha256.rs -/

/-- sha256.rs:10-12 `rotr`. -/
def rotr32 (m : Nat) (w : BitVec 32) : BitVec 32 := (w >>> m) ||| (w <<< ((32 - m) &&& 31))
/-- sha256.rs:21-23 -/
def bsig0_256 (x : BitVec 32) : BitVec 32 := rotr32 2 x ^^^ rotr32 13 x ^^^ rotr32 22 x
/-- sha256.rs:24-26 -/
def bsig1_256 (x : BitVec 32) : BitVec 32 := rotr32 6 x ^^^ rotr32 11 x ^^^ rotr32 25 x
/-- sha256.rs:27-29 -/
def ssig0_256 (x : BitVec 32) : BitVec 32 := rotr32 7 x ^^^ rotr32 18 x ^^^ (x >>> 3)
/-- sha256.rs:30-32 -/
def ssig1_256 (x : BitVec 32) : BitVec 32 := rotr32 17 x ^^^ rotr32 19 x ^^^ (x >>> 10)

/-- sha256.rs:68-79 constant table `k`. -/
def k256 : List (BitVec 32) := [
  0x428a2f98, 0x71374491, 0xb5c0fbcf, 0xe9b5dba5, 0x3956c25b, 0x59f111f1, 0x923f82a4,
  0xab1c5ed5, 0xd807aa98, 0x12835b01, 0x243185be, 0x550c7dc3, 0x72be5d74, 0x80deb1fe,
  0x9bdc06a7, 0xc19bf174, 0xe49b69c1, 0xefbe4786, 0x0fc19dc6, 0x240ca1cc, 0x2de92c6f,
  0x4a7484aa, 0x5cb0a9dc, 0x76f988da, 0x983e5152, 0xa831c66d, 0xb00327c8, 0xbf597fc7,
  0xc6e00bf3, 0xd5a79147, 0x06ca6351, 0x14292967, 0x27b70a85, 0x2e1b2138, 0x4d2c6dfc,
  0x53380d13, 0x650a7354, 0x766a0abb, 0x81c2c92e, 0x92722c85, 0xa2bfe8a1, 0xa81a664b,
  0xc24b8b70, 0xc76c51a3, 0xd192e819, 0xd6990624, 0xf40e3585, 0x106aa070, 0x19a4c116,
  0x1e376c08, 0x2748774c, 0x34b0bcb5, 0x391c0cb3, 0x4ed8aa4a, 0x5b9cca4f, 0x682e6ff3,
  0x748f82ee, 0x78a5636f, 0x84c87814, 0x8cc70208, 0x90befffa, 0xa4506ceb, 0xbef9a3f7,
  0xc67178f2]

/-- Constants of sha256.rs (40, 54, 60, 165, 136-139). -/
def sha256Cfg : ShaCfg 32 where
  bsig0 := bsig0_256
  bsig1 := bsig1_256
  ssig0 := ssig0_256
  ssig1 := ssig1_256
  k := k256
  block := 64
  minPad := 9
  lenEnd := 8
  outLen := 32
  init := { a := 0x6a09e667, b := 0xbb67ae85, c := 0x3c6ef372, d := 0xa54ff53a,
            e := 0x510e527f, f := 0x9b05688c, g := 0x1f83d9ab, h := 0x5be0cd19 }

/-- sha256.rs:188-192 `sha256`. -/
def sha256 (message : Bytes) : Bytes :=
  ((Sha.new sha256Cfg).update sha256Cfg message).finalize sha256Cfg

/-! ### sha384.rs -/

/-- sha384.rs:10-12 `rotr`. -/
def rotr64 (m : Nat) (w : BitVec 64) : BitVec 64 := (w >>> m) ||| (w <<< ((64 - m) &&& 63))
/-- sha384.rs:21-23 -/
def bsig0_384 (x : BitVec 64) : BitVec 64 := rotr64 28 x ^^^ rotr64 34 x ^^^ rotr64 39 x
/-- sha384.rs:24-26 -/
def bsig1_384 (x : BitVec 64) : BitVec 64 := rotr64 14 x ^^^ rotr64 18 x ^^^ rotr64 41 x
/-- sha384.rs:27-29 -/
def ssig0_384 (x : BitVec 64) : BitVec 64 := rotr64 1 x ^^^ rotr64 8 x ^^^ (x >>> 7)
/-- sha384.rs:30-32 -/
def ssig1_384 (x : BitVec 64) : BitVec 64 := rotr64 19 x ^^^ rotr64 61 x ^^^ (x >>> 6)

/-- sha384.rs:68-89 constant table `k`. -/
def k384 : List (BitVec 64) := [
  0x428a2f98d728ae22, 0x7137449123ef65cd, 0xb5c0fbcfec4d3b2f, 0xe9b5dba58189dbbc,
  0x3956c25bf348b538, 0x59f111f1b605d019, 0x923f82a4af194f9b, 0xab1c5ed5da6d8118,
  0xd807aa98a3030242, 0x12835b0145706fbe, 0x243185be4ee4b28c, 0x550c7dc3d5ffb4e2,
  0x72be5d74f27b896f, 0x80deb1fe3b1696b1, 0x9bdc06a725c71235, 0xc19bf174cf692694,
  0xe49b69c19ef14ad2, 0xefbe4786384f25e3, 0x0fc19dc68b8cd5b5, 0x240ca1cc77ac9c65,
  0x2de92c6f592b0275, 0x4a7484aa6ea6e483, 0x5cb0a9dcbd41fbd4, 0x76f988da831153b5,
  0x983e5152ee66dfab, 0xa831c66d2db43210, 0xb00327c898fb213f, 0xbf597fc7beef0ee4,
  0xc6e00bf33da88fc2, 0xd5a79147930aa725, 0x06ca6351e003826f, 0x142929670a0e6e70,
  0x27b70a8546d22ffc, 0x2e1b21385c26c926, 0x4d2c6dfc5ac42aed, 0x53380d139d95b3df,
  0x650a73548baf63de, 0x766a0abb3c77b2a8, 0x81c2c92e47edaee6, 0x92722c851482353b,
  0xa2bfe8a14cf10364, 0xa81a664bbc423001, 0xc24b8b70d0f89791, 0xc76c51a30654be30,
  0xd192e819d6ef5218, 0xd69906245565a910, 0xf40e35855771202a, 0x106aa07032bbd1b8,
  0x19a4c116b8d2d0c8, 0x1e376c085141ab53, 0x2748774cdf8eeb99, 0x34b0bcb5e19b48a8,
  0x391c0cb3c5c95a63, 0x4ed8aa4ae3418acb, 0x5b9cca4f7763e373, 0x682e6ff3d6b2b8a3,
  0x748f82ee5defb2fc, 0x78a5636f43172f60, 0x84c87814a1f0ab72, 0x8cc702081a6439ec,
  0x90befffa23631e28, 0xa4506cebde82bde9, 0xbef9a3f7b2c67915, 0xc67178f2e372532b,
  0xca273eceea26619c, 0xd186b8c721c0c207, 0xeada7dd6cde0eb1e, 0xf57d4f7fee6ed178,
  0x06f067aa72176fba, 0x0a637dc5a2c898a6, 0x113f9804bef90dae, 0x1b710b35131c471b,
  0x28db77f523047d84, 0x32caab7b40c72493, 0x3c9ebe0a15c9bebc, 0x431d67c49c100d4c,
  0x4cc5d4becb3e42b6, 0x597f299cfc657e2a, 0x5fcb6fab3ad6faec, 0x6c44198c4a475817]

/-- Constants of sha384.rs (40, 54, 60, 181, 147-156). -/
def sha384Cfg : ShaCfg 64 where
  bsig0 := bsig0_384
  bsig1 := bsig1_384
  ssig0 := ssig0_384
  ssig1 := ssig1_384
  k := k384
  block := 128
  minPad := 17
  lenEnd := 16
  outLen := 48
  init := { a := 0xcbbb9d5dc1059ed8, b := 0x629a292a367cd507, c := 0x9159015a3070dd17, d := 0x152fecd8f70e5939,
            e := 0x67332667ffc00b31, f := 0x8eb44a8768581511, g := 0xdb0c2e0d64f98fa7, h := 0x47b5481dbefa4fa4 }

/-- sha384.rs:202-206 `sha384`. -/
def sha384 (message : Bytes) : Bytes :=
  ((Sha.new sha384Cfg).update sha384Cfg message).finalize sha384Cfg

end ATLS.Model
