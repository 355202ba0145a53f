import Verif.Basic
/-
Model of crypto/ellipticcurve/math/curve25519.rs: X25519 on sixteen 16-bit limbs held in `i64`.

An `i64` is an `Int` that stays inside the 64-bit range: every `+`, `-`, `*` goes through `chk64`, which panics on
overflow (debug profile). Bitwise operators go through 64-bit vectors.
-/
namespace ATLS.Model.X25519

/-- crypto/ellipticcurve/math/curve25519.rs:7 `FieldElem = [i64; 16]`. -/
abbrev FieldElem := List Int

/-- crypto/ellipticcurve/math/curve25519.rs:9-108: Overflow check of `i64` arithmetic. -/
def chk64 (v : Int) : Res Unit Int := if -2 ^ 63 ≤ v ∧ v < 2 ^ 63 then .ok v else .panic

/-- crypto/ellipticcurve/math/curve25519.rs:20: `i64` arithmetic right shift. -/
def shr (v : Int) (n : Nat) : Int := v / 2 ^ n

/-- crypto/ellipticcurve/math/curve25519.rs:12, 21: `i64` left shift (drops the high bits, never panics). -/
def shl (v : Int) (n : Nat) : Int := (BitVec.ofInt 64 v <<< n).toInt

/-- crypto/ellipticcurve/math/curve25519.rs:14: `i64` bitwise and. -/
def band (a b : Int) : Int := (BitVec.ofInt 64 a &&& BitVec.ofInt 64 b).toInt

/-- crypto/ellipticcurve/math/curve25519.rs:76-83: `i64` bitwise exclusive or. -/
def bxor (a b : Int) : Int := (BitVec.ofInt 64 a ^^^ BitVec.ofInt 64 b).toInt

/-- crypto/ellipticcurve/math/curve25519.rs, `swap25519`: `i64` bitwise complement. -/
def bnot (a : Int) : Int := (~~~ BitVec.ofInt 64 a).toInt

/-- crypto/ellipticcurve/math/curve25519.rs:9-16 `unpack25519`. -/
def unpack25519 (input : Bytes) : Res Unit FieldElem := do
  let out ← (List.range 16).mapM fun i => do
    let lo ← idx input (2 * i)
    let hi ← idx input (2 * i + 1)
    chk64 (lo.toNat + shl hi.toNat 8)
  let last ← idx out 15
  .ok (out.set 15 (band last 0x7fff))

/-- crypto/ellipticcurve/math/curve25519.rs:19-27, the loop of `carry25519` from left to right: `c` is the carry that
the previous iteration added to `elem[i]` (0 for the first limb); the final carry is returned. -/
def carryLoop (c : Int) : List Int → Res Unit (List Int × Int)
  | [] => .ok ([], c)
  | e :: es => do
    let e ← chk64 (e + c)
    let carry := shr e 16
    let r ← chk64 (e - shl carry 16)
    let (rs, out) ← carryLoop carry es
    .ok (r :: rs, out)

/-- crypto/ellipticcurve/math/curve25519.rs:18-28 `carry25519`: the carry out of limb 15 comes back to limb 0 times 38. -/
def carry25519 (elem : FieldElem) : Res Unit FieldElem := do
  let (rs, c) ← carryLoop 0 elem
  let m ← chk64 (38 * c)
  let e0 ← idx rs 0
  let r0 ← chk64 (e0 + m)
  .ok (rs.set 0 r0)

/-- crypto/ellipticcurve/math/curve25519.rs:30-37 `fadd`. -/
def fadd (a b : FieldElem) : Res Unit FieldElem :=
  (List.range 16).mapM fun i => do
    let x ← idx a i
    let y ← idx b i
    chk64 (x + y)

/-- crypto/ellipticcurve/math/curve25519.rs:39-46 `fsub`. -/
def fsub (a b : FieldElem) : Res Unit FieldElem :=
  (List.range 16).mapM fun i => do
    let x ← idx a i
    let y ← idx b i
    chk64 (x - y)

/-- The index pairs of the double loop in `fmul` (crypto/ellipticcurve/math/curve25519.rs:51-52). -/
def mulPairs : List (Nat × Nat) := (List.range 16).flatMap fun i => (List.range 16).map fun j => (i, j)

/-- crypto/ellipticcurve/math/curve25519.rs:53 `product[i + j] += a[i] * b[j]`. -/
def mulStep (a b : FieldElem) (product : List Int) (ij : Nat × Nat) : Res Unit (List Int) := do
  let x ← idx a ij.1
  let y ← idx b ij.2
  let m ← chk64 (x * y)
  let old ← idx product (ij.1 + ij.2)
  let new ← chk64 (old + m)
  .ok (product.set (ij.1 + ij.2) new)

/-- crypto/ellipticcurve/math/curve25519.rs:48-63 `fmul`. The loop of lines 56-58 and the copy of line 59 are one pass:
the limbs it writes (0..14) are not among those it reads as high limbs (16..30). -/
def fmul (a b : FieldElem) : Res Unit FieldElem := do
  let product ← mulPairs.foldlM (mulStep a b) (List.replicate 31 0)
  let out ← (List.range 16).mapM fun i => do
    let lo ← idx product i
    if i < 15 then do
      let hi ← idx product (i + 16)
      let m ← chk64 (38 * hi)
      chk64 (lo + m)
    else .ok lo
  let out ← carry25519 out
  carry25519 out

/-- crypto/ellipticcurve/math/curve25519.rs:65-74 `finverse`: input^(2^255-21) by square and multiply, skipping the
multiplication at bits 2 and 4. -/
def finverse (input : FieldElem) : Res Unit FieldElem :=
  (List.range 254).reverse.foldlM (fun c i => do
    let c ← fmul c c
    if i ≠ 2 ∧ i ≠ 4 then fmul c input else .ok c) input

/-- crypto/ellipticcurve/math/curve25519.rs:76-83 `swap25519`: exchanges two elements when `bit` is 1. -/
def swap25519 (p q : FieldElem) (bit : Int) : FieldElem × FieldElem :=
  let c := bnot (bit - 1)
  let r := List.zipWith (fun x y => let t := band c (bxor x y); (bxor x t, bxor y t)) p q
  (r.map (·.1), r.map (·.2))

/-- crypto/ellipticcurve/math/curve25519.rs:92-97 and 99: `m = t - (2^255 - 19)` limb by limb, for the limbs after the
first one. `prev` is the still unmasked previous limb of `m`; `i` the index of the head of the list. -/
def subLoop (prev : Int) (i : Nat) : List Int → Res Unit (List Int)
  | [] => .ok [prev]
  | t :: ts => do
    let d ← chk64 (t - (if i < 15 then 0xffff else 0x7fff))
    let m ← chk64 (d - band (shr prev 16) 1)
    let rest ← subLoop m (i + 1) ts
    .ok (band prev 0xffff :: rest)

/-- crypto/ellipticcurve/math/curve25519.rs:91-101, one round of the final reduction. The old value of `m` is never read:
every limb is assigned first. -/
def reduceRound (t : FieldElem) : Res Unit FieldElem := do
  let t0 ← idx t 0
  let m0 ← chk64 (t0 - 0xffed)
  let m ← subLoop m0 1 (t.drop 1)
  let m15 ← idx m 15
  let carry := band (shr m15 16) 1
  .ok (swap25519 t m (1 - carry)).1

/-- crypto/ellipticcurve/math/curve25519.rs:85-108 `pack25519`. `as u8` truncates. -/
def pack25519 (input : FieldElem) : Res Unit Bytes := do
  let t ← carry25519 input
  let t ← carry25519 t
  let t ← carry25519 t
  let t ← reduceRound t
  let t ← reduceRound t
  .ok (t.flatMap fun x => [BitVec.ofInt 8 x, BitVec.ofInt 8 (shr x 8)])

/-- crypto/ellipticcurve/math/curve25519.rs:111-113, clamping. -/
def clamp (scalar : Bytes) : Res Unit Bytes := do
  let b0 ← idx scalar 0
  let b31 ← idx scalar 31
  .ok ((scalar.set 0 (b0 &&& 0xf8)).set 31 ((b31 &&& 0x7f) ||| 0x40))

/-- crypto/ellipticcurve/math/curve25519.rs:115-118: The four working variables `a, b, c, d` of `scalarmult`. -/
structure Ladder where
  a : FieldElem
  b : FieldElem
  c : FieldElem
  d : FieldElem

/-- `constant` (crypto/ellipticcurve/math/curve25519.rs:131-132). -/
def constant : FieldElem := 121665 :: List.replicate 15 0

/-- crypto/ellipticcurve/math/curve25519.rs:134-156, one round of the ladder. -/
def ladderRound (clamped : Bytes) (x : FieldElem) (l : Ladder) (i : Nat) : Res Unit Ladder := do
  let byte ← idx clamped (i >>> 3)
  let bit : Int := ((byte.toNat >>> (i &&& 7)) &&& 1 : Nat)
  let (a, b) := swap25519 l.a l.b bit
  let (c, d) := swap25519 l.c l.d bit
  let e ← fadd a c
  let a ← fsub a c
  let c ← fadd b d
  let b ← fsub b d
  let d ← fmul e e
  let f ← fmul a a
  let a ← fmul c a
  let c ← fmul b e
  let e ← fadd a c
  let a ← fsub a c
  let b ← fmul a a
  let c ← fsub d f
  let a ← fmul c constant
  let a ← fadd a d
  let c ← fmul c a
  let a ← fmul d f
  let d ← fmul b x
  let b ← fmul e e
  let (a, b) := swap25519 a b bit
  let (c, d) := swap25519 c d bit
  .ok ⟨a, b, c, d⟩

/-- crypto/ellipticcurve/math/curve25519.rs:115-130: The field elements 0 and 1. -/
def zero : FieldElem := List.replicate 16 0
@[inherit_doc zero] def one : FieldElem := 1 :: List.replicate 15 0

/-- crypto/ellipticcurve/math/curve25519.rs:110-161 `scalarmult`. -/
def scalarmult (pointX scalar : Bytes) : Res Unit Bytes := do
  let clamped ← clamp scalar
  let x ← unpack25519 pointX
  let l ← (List.range 255).reverse.foldlM (ladderRound clamped x) ⟨one, x, zero, one⟩
  let c ← finverse l.c
  let a ← fmul l.a c
  pack25519 a

end ATLS.Model.X25519
