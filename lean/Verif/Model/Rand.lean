import Verif.Model.Bytes
/-
Model of `anothertls/src/rand`.
-/
namespace ATLS.Model
open ATLS

/-- rand/simplerng.rs:20-24 `SimpleRng<u32>::next`: the new state and the value. -/
def SimpleRng32.next (s : BitVec 32) : BitVec 32 × BitVec 32 :=
  let s := s + 1#32
  let a := s * 15485863#32
  ((a * a * a) % 0xffffffff#32, s)

/-- rand/simplerng.rs:27-31 `SimpleRng<u32>::between`; `max - min` and `% 0` panic. -/
def SimpleRng32.between {ε : Type} (s : BitVec 32) (min max : Nat) : Res ε (BitVec 32 × BitVec 32) :=
  let lo := BitVec.ofNat 32 min
  let hi := BitVec.ofNat 32 max
  if hi < lo then .panic
  else if hi - lo = 0#32 then .panic
  else
    let (v, s) := SimpleRng32.next s
    let r := v % (hi - lo)
    if r.toNat + lo.toNat < 2 ^ 32 then .ok (r + lo, s) else .panic

/-- rand/simplerng.rs:32-38 `SimpleRng<u32>::bytes` with the loop condition of the code (`res.len() >= size`); `none`: still looping after
`fuel` rounds. -/
def SimpleRng32.bytes (size : Nat) : Nat → BitVec 32 → Bytes → Option (Bytes × BitVec 32)
  | 0, _, _ => none
  | fuel + 1, s, res =>
    if res.length ≥ size then
      let (v, s) := SimpleRng32.next s
      SimpleRng32.bytes size fuel s (res ++ [v.setWidth 8])
    else some (res, s)

/-- rand/simplerng.rs:47-50: the product of ten values of the 32-bit generator. -/
def SimpleRng.product : Nat → BitVec 32 → Nat → Nat
  | 0, _, b => b
  | n + 1, s, b =>
    let (v, s) := SimpleRng32.next s
    SimpleRng.product n s (b * v.toNat)

/-- rand/simplerng.rs:42-52 `SimpleRng<IBig>::next`. -/
def SimpleRng.next {ε : Type} (seed : Int) : Res ε (Nat × Int) := do
  let b ← ibigTo32bytes seed .little
  .ok (SimpleRng.product 10 ((toU128Be b).setWidth 32) 1, seed + 10)

/-- rand/simplerng.rs:60-68 `SimpleRng<IBig>::bytes`; `none`: still looping after `fuel` rounds. -/
def SimpleRng.bytes {ε : Type} (size : Nat) : Nat → Int → Bytes → Res ε (Option (Bytes × Int))
  | 0, _, _ => .ok none
  | fuel + 1, seed, res =>
    if res.length ≥ size then do
      let (v, seed) ← SimpleRng.next seed
      let b ← ibigTo32bytes v .little
      SimpleRng.bytes size fuel seed (res ++ b)
    else .ok (some (res, seed))

/-- rand/mod.rs:14-17 `PRNG`. -/
inductive Prng where
  | simple
  | urandom
  deriving DecidableEq, Repr

/-- rand/mod.rs:19-22: the implementations of the trait `RngCore<IBig>`. `/dev/urandom` is not part of the repository: `reads` is what the
successive reads of it return. -/
inductive Rng where
  | simple (seed : Int)
  | urandom (reads : List Bytes)
  deriving DecidableEq, Repr

/-- rand/urandom.rs:21-29 `read_from_urandom`: `read_exact` of 100 bytes; a failed or short read panics (also a use beyond the list). -/
def readFromUrandom {ε : Type} : List Bytes → Res ε (Bytes × List Bytes)
  | [] => .panic
  | b :: rest => if b.length = 100 then .ok (b, rest) else .panic

/-- rand/urandom.rs:30-35 `URandomRng::next`. -/
def URandomRng.next {ε : Type} (reads : List Bytes) : Res ε (Nat × List Bytes) := do
  let (b, rest) ← readFromUrandom reads
  let s ← slice b 0 8
  let size ← toU64Le s
  let size := size.toNat % 50 + 50
  let d ← slice b 8 size
  .ok (toIbigBe d, rest)

/-- rand/urandom.rs:45-49 and rand/simplerng.rs:55-59 `between`; `max - min` may be negative (the remainder of `IBig` is truncated), the
remainder by zero panics. -/
def Rng.between {ε : Type} (rng : Rng) (min max : Nat) : Res ε (Int × Rng) :=
  let lo : Int := 2 ^ (min * 8)
  let hi : Int := 2 ^ (max * 8)
  match rng with
  | .urandom reads => do
    let (v, reads) ← URandomRng.next reads
    if hi - lo = 0 then .panic else .ok ((v : Int).tmod (hi - lo) + lo, .urandom reads)
  | .simple seed => do
    let (v, seed) ← SimpleRng.next seed
    if hi - lo = 0 then .panic else .ok ((v : Int).tmod (hi - lo) + lo, .simple seed)

/-- rand/urandom.rs:50-53 and rand/simplerng.rs:60-68 `bytes`. The loop of the simple generator runs zero times or forever; forever is
modelled as a panic (`SimpleRng.bytes` shows that it never ends). -/
def Rng.bytes {ε : Type} (rng : Rng) (size : Nat) : Res ε (Bytes × Rng) :=
  match rng with
  | .urandom reads => do
    let (b, reads) ← readFromUrandom reads
    let b ← slice b 0 size
    .ok (b, .urandom reads)
  | .simple seed => if size = 0 then .panic else .ok ([], .simple seed)

end ATLS.Model
