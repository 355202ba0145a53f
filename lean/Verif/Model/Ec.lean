import Verif.Model.Bytes
import Verif.Model.X25519
/-
Model of crypto/ellipticcurve: big-integer helpers, P-256 in Jacobian coordinates, ECDSA.

`IBig` is `Int`; its `%` and `/` truncate towards zero (`Int.tmod`, `Int.tdiv`). Division by zero, which panics in the
code, cannot happen: the moduli are the curve constants.
-/
namespace ATLS.Model

/-- crypto/ellipticcurve/point.rs:11-14 `Point`. -/
structure Point where
  x : Int
  y : Int
  deriving DecidableEq, Repr

/-- crypto/ellipticcurve/point.rs:29-33 `JacobianPoint`. -/
structure JacobianPoint where
  x : Int
  y : Int
  z : Int
  deriving DecidableEq, Repr

/-- crypto/ellipticcurve/curve.rs:10-14 `Equation`. -/
inductive Equation where
  | shortWeierstrass
  | montgomery
  deriving DecidableEq, Repr

/-- crypto/ellipticcurve/curve.rs:17-25 `Curve` (the name is left out). -/
structure Curve where
  equation : Equation
  p : Int
  a : Int
  b : Int
  n : Int
  g : Point
  deriving DecidableEq, Repr

/-- crypto/ellipticcurve/curve.rs:28-41 `Curve::secp256r1`. -/
def Curve.secp256r1 : Curve where
  equation := .shortWeierstrass
  p := 0xffffffff00000001000000000000000000000000ffffffffffffffffffffffff
  a := 0xffffffff00000001000000000000000000000000fffffffffffffffffffffffc
  b := 0x5ac635d8aa3a93e7b3ebbd55769886bc651d06b0cc53b0f63bce3c3e27d2604b
  n := 0xffffffff00000000ffffffffffffffffbce6faada7179e84f3b9cac2fc632551
  g := ⟨0x6b17d1f2e12c4247f8bce6e563a440f277037d812deb33a0f4a13945d898c296,
    0x4fe342e2fe1a7f9b8ee7eb4a7c0f9e162bce33576b315ececbb6406837bf51f5⟩

/-- crypto/ellipticcurve/curve.rs:43-56 `Curve::curve25519`. -/
def Curve.curve25519 : Curve where
  equation := .montgomery
  p := 0x7fffffffffffffffffffffffffffffffffffffffffffffffffffffffffffffed
  a := 486662
  b := 1
  n := 0x1000000000000000000000000000000014def9dea2f79cd65812631a5cf5d3ed
  g := ⟨9, 0x20ae19a1b8a086b4e01edd2c7748d14c923d4d7e6d7c61b229e9c5a27eced3d9⟩

/-- crypto/ellipticcurve/curve.rs:74-92 `Curve::contains`. -/
def Curve.contains (c : Curve) (p : Point) : Bool :=
  if p.x ≥ c.p ∨ p.y ≥ c.p then false
  else
    let (left, right) := match c.equation with
      | .shortWeierstrass => (p.y ^ 2, p.x ^ 3 + c.a * p.x + c.b)
      | .montgomery => (p.y ^ 2 * c.b, p.x ^ 3 + c.a * p.x ^ 2 + p.x)
    left.tmod c.p == right.tmod c.p

/-- crypto/ellipticcurve/math.rs:62-73 `rem_euclid`. -/
def remEuclid (x v : Int) : Int :=
  let r := x.tmod v
  if r < 0 then (if v < 0 then r - v else r + v) else r

/-- crypto/ellipticcurve/math.rs:39-47, the loop of `inv`; returns the last `lm`. `low` strictly decreases, so `low`
iterations are enough fuel. -/
def invLoop : Nat → Int → Int → Int → Int → Int
  | 0, lm, _, _, _ => lm
  | fuel + 1, lm, hm, low, high =>
    if low > 1 then
      let r := high.tdiv low
      let nm := hm - lm * r
      let nw := high - low * r
      invLoop fuel nm lm nw low
    else lm

/-- crypto/ellipticcurve/math.rs:29-50 `inv`. -/
def inv (x n : Int) : Int :=
  if x = 0 then 0
  else remEuclid (invLoop ((x.tmod n).toNat + 1) 1 0 (x.tmod n) n) n

/-- crypto/ellipticcurve/point.rs:43-49 `JacobianPoint::from_point`. -/
def JacobianPoint.fromPoint (p : Point) : JacobianPoint := ⟨p.x, p.y, 1⟩

/-- crypto/ellipticcurve/point.rs:51-57 `JacobianPoint::to_point`. -/
def JacobianPoint.toPoint (j : JacobianPoint) (p : Int) : Point :=
  let z := inv j.z p
  ⟨(j.x * z ^ 2).tmod p, (j.y * z ^ 3).tmod p⟩

/-- crypto/ellipticcurve/math/jacobian.rs:12-39 `jacobian_double`. -/
def jacobianDouble (p : JacobianPoint) (curve : Curve) : JacobianPoint :=
  if p.y = 0 then ⟨0, 0, 0⟩
  else
    let ysq := p.y ^ 2
    let s := remEuclid (p.x * 4 * ysq) curve.p
    let m := remEuclid (p.x ^ 2 * 3 + curve.a * p.z ^ 4) curve.p
    let nx := remEuclid (m ^ 2 - 2 * s) curve.p
    let ny := remEuclid (m * (s - nx) - 8 * ysq ^ 2) curve.p
    let nz := remEuclid (p.y * p.z * 2) curve.p
    ⟨nx, ny, nz⟩

/-- crypto/ellipticcurve/math/jacobian.rs:41-74 `jacobian_add`. -/
def jacobianAdd (p q : JacobianPoint) (curve : Curve) : JacobianPoint :=
  if p.y = 0 then q
  else if q.y = 0 then p
  else
    let u1 := remEuclid (p.x * q.z ^ 2) curve.p
    let u2 := remEuclid (q.x * p.z ^ 2) curve.p
    let s1 := remEuclid (p.y * q.z ^ 3) curve.p
    let s2 := remEuclid (q.y * p.z ^ 3) curve.p
    if u1 = u2 then
      if s1 ≠ s2 then ⟨0, 0, 1⟩
      else jacobianDouble p curve
    else
      let h := remEuclid (u2 - u1) curve.p
      let r := remEuclid (s2 - s1) curve.p
      let h2 := remEuclid (h * h) curve.p
      let h3 := remEuclid (h * h2) curve.p
      let u1h2 := remEuclid (u1 * h2) curve.p
      let x := remEuclid (r ^ 2 - h3 - 2 * u1h2) curve.p
      let y := remEuclid (r * (u1h2 - x) - s1 * h3) curve.p
      let z := remEuclid (h * p.z * q.z) curve.p
      ⟨x, y, z⟩

/-- crypto/ellipticcurve/math/jacobian.rs:76-96 `jacobian_multiply`; the fuel bounds the recursion depth (one reduction
modulo the group order, then one halving per level). -/
def jacobianMultiplyAux : Nat → JacobianPoint → Int → Curve → JacobianPoint
  | 0, _, _, _ => ⟨0, 0, 1⟩
  | fuel + 1, p, n, curve =>
    if p.y = 0 ∨ n = 0 then ⟨0, 0, 1⟩
    else if n = 1 then p
    else if n < 0 ∨ n ≥ curve.n then jacobianMultiplyAux fuel p (remEuclid n curve.n) curve
    else
      let q := jacobianDouble (jacobianMultiplyAux fuel p (n.tdiv 2) curve) curve
      if remEuclid n 2 = 0 then q else jacobianAdd q p curve

/-- crypto/ellipticcurve/math/jacobian.rs:76-96 `jacobian_multiply`. The recursion depth is at most 1 + the bit length of
the group order. -/
def jacobianMultiply (p : JacobianPoint) (n : Int) (curve : Curve) : JacobianPoint :=
  jacobianMultiplyAux (curve.n.toNat.log2 + 4) p n curve

namespace Ec

/-- crypto/ellipticcurve/math.rs:86-96 `add`; `todo!()` on Montgomery curves. -/
def add (p q : Point) (curve : Curve) : Res Unit Point :=
  match curve.equation with
  | .shortWeierstrass => .ok ((jacobianAdd (.fromPoint p) (.fromPoint q) curve).toPoint curve.p)
  | .montgomery => .panic

/-- crypto/ellipticcurve/math.rs:98-113 `multiply`. -/
def multiply (p : Point) (n : Int) (curve : Curve) : Res Unit Point :=
  match curve.equation with
  | .montgomery => do
    let a ← ibigTo32bytes n .big
    let x ← ibigTo32bytes p.x .big
    let res ← X25519.scalarmult x a
    .ok ⟨toIbigBe res, 0⟩
  | .shortWeierstrass => .ok ((jacobianMultiply (.fromPoint p) n curve).toPoint curve.p)

end Ec

/-- crypto/ellipticcurve/publickey.rs:8-11 `PublicKey`. -/
structure PublicKey where
  point : Point
  curve : Curve
  deriving DecidableEq, Repr

/-- crypto/ellipticcurve/privatekey.rs:10-13 `PrivateKey`. -/
structure PrivateKey where
  curve : Curve
  secret : Int
  deriving DecidableEq, Repr

/-- crypto/ellipticcurve/privatekey.rs:29-32 `PrivateKey::get_public_key`. -/
def PrivateKey.getPublicKey (k : PrivateKey) : Res Unit PublicKey := do
  let point ← Ec.multiply k.curve.g k.secret k.curve
  .ok ⟨point, k.curve⟩

/-- crypto/ellipticcurve/signature.rs:14-18 `Signature`. -/
structure Signature where
  s : Int
  r : Int
  deriving DecidableEq, Repr

namespace Ecdsa

/-- crypto/ellipticcurve/ecdsa.rs:47-63, one round of the signing loop with the nonce `k`: `none` means `continue`. -/
def signRound (key : PrivateKey) (msg : Int) (k : Int) : Res Unit (Option Signature) := do
  let p ← Ec.multiply key.curve.g k key.curve
  let r := remEuclid p.x key.curve.n
  if r = 0 then .ok none
  else
    let s := remEuclid ((msg + r * key.secret) * inv k key.curve.n) key.curve.n
    if s = 0 then .ok none
    else .ok (some ⟨s, r⟩)

/-- crypto/ellipticcurve/ecdsa.rs:43-66, the signing loop over the successive values of `rng.between(1, 32)`. `none`: the
given nonces are used up and the loop is still running. -/
def signLoop (key : PrivateKey) (msg : Int) : List Int → Res Unit (Option Signature)
  | [] => .ok none
  | k :: ks => do
    match ← signRound key msg k with
    | some s => .ok (some s)
    | none => signLoop key msg ks

/-- crypto/ellipticcurve/ecdsa.rs:31-67 `Ecdsa::sign`; `nonces` is what `rng.between(1, 32)` returns, call after call. -/
def sign (nonces : List Int) (key : PrivateKey) (hashedMessage : Bytes) : Res Unit (Option Signature) :=
  signLoop key (toIbigBe hashedMessage) nonces

/-- crypto/ellipticcurve/ecdsa.rs:69-120 `Ecdsa::verify`. -/
def verify (pubKey : PublicKey) (sign : Signature) (hashedMessage : Bytes) : Res Unit Bool := do
  let curve := pubKey.curve
  if pubKey.point.x = 0 ∧ pubKey.point.y = 0 then .ok false
  else if pubKey.point.x = curve.n ∧ pubKey.point.y = curve.n then .ok false
  else if !curve.contains pubKey.point then .ok false
  else if sign.s ≤ 0 ∨ sign.s ≥ curve.n then .ok false
  else if sign.r ≤ 0 ∨ sign.r ≥ curve.n then .ok false
  else do
    let z : Int := toIbigBe hashedMessage
    let sInv := inv sign.s curve.n
    let u1 := remEuclid (z * sInv) curve.n
    let u2 := remEuclid (sign.r * sInv) curve.n
    let res1 ← Ec.multiply curve.g u1 curve
    let res2 ← Ec.multiply pubKey.point u2 curve
    let res ← Ec.add res1 res2 curve
    let x := remEuclid res.x curve.n
    let y := remEuclid res.y curve.n
    if x = 0 ∧ y = 0 then .ok false
    else if x ≠ sign.r then .ok false
    else .ok true

end Ecdsa

end ATLS.Model
