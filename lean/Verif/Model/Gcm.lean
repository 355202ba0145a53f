import Verif.Model.Aes
import Verif.Model.Bytes
import Verif.Model.Alert
/-
Model of `anothertls/src/crypto/aes/gcm.rs`.
-/
namespace ATLS.Model.Gcm
open ATLS ATLS.Model ATLS.Model.Aes

/-- crypto/aes/gcm.rs:27-37: one iteration of the loop of `gmult` on `(a, b, p)`. -/
def gmultStep (s : BitVec 128 × BitVec 128 × BitVec 128) : BitVec 128 × BitVec 128 × BitVec 128 :=
  let (a, b, p) := s
  let p := if b &&& 1#128 ≠ 0#128 then p ^^^ a else p
  let hiBitSet := a &&& 0x80000000000000000000000000000000#128 ≠ 0#128
  let a := a <<< 1
  let a := if hiBitSet then a ^^^ 0x87#128 else a
  (a, b >>> 1, p)

/-- crypto/aes/gcm.rs:21-40 `Gcm::gmult`. -/
def gmult (a b : BitVec 128) : BitVec 128 :=
  (Nat.repeat gmultStep 128 (a.reverse, b.reverse, 0#128)).2.2.reverse

/-- The index sequence `(0..n).step_by(16)` of the loops at crypto/aes/gcm.rs:61, 79 and 89. -/
def stepBy16 (n : Nat) : List Nat := (List.range ((n + 15) / 16)).map (· * 16)

/-- crypto/aes/gcm.rs:62-66, 80-84 and 100-104: `if n > i + 16 { &d[i..i+16] } else { &d[i..] }`. -/
def slice16 (d : Bytes) (i : Nat) : Bytes :=
  if d.length > i + 16 then (d.drop i).take 16 else d.drop i

/-- crypto/aes/gcm.rs:61-68 and 79-86: absorb a byte string into the hash value. -/
def absorb (H : BitVec 128) (d : Bytes) (X : BitVec 128) : BitVec 128 :=
  (stepBy16 d.length).foldl (fun X i => gmult (X ^^^ toU128Be (slice16 d i)) H) X

/-- crypto/aes/gcm.rs:92-96: the counter block. `Yi + counter` panics on overflow (only for an IV that is not 96 bits long). -/
def counterBlock {ε : Type} (iv : Bytes) (Yi : BitVec 128) (counter : Nat) : Res ε (BitVec 128) :=
  if iv.length * 8 ≠ 96 then
    if Yi.toNat + counter < 2 ^ 128 then .ok (Yi + BitVec.ofNat 128 counter) else .panic
  else .ok ((Yi &&& ~~~ 0xFFFFFFFF#128) ||| BitVec.ofNat 128 counter)

/-- crypto/aes/gcm.rs:89-119: one iteration of the data loop on `(counter, X, output)`. -/
def dataStep {ε : Type} (aes : AES) (H : BitVec 128) (iv : Bytes) (Yi : BitVec 128) (encrypt : Bool) (data : Bytes)
    (s : Nat × BitVec 128 × Bytes) (i : Nat) : Res ε (Nat × BitVec 128 × Bytes) := do
  let (counter, X, output) := s
  let counter := (counter + 1) % 0x100000000
  let Y ← counterBlock iv Yi counter
  let EkY := aes.encrypt (u128ToBytesBe Y)
  let dataSlice := slice16 data i
  let dataU128 := toU128Be dataSlice
  let overflow := (16 - dataSlice.length) * 8
  let outI := (dataU128 ^^^ toU128Be EkY) >>> overflow
  let outBytes := (u128ToBytesBe outI).drop (16 - dataSlice.length)
  let X := if encrypt then gmult (X ^^^ (outI <<< overflow)) H else gmult (X ^^^ dataU128) H
  .ok (counter, X, output ++ outBytes)

/-- crypto/aes/gcm.rs:42-128 `Gcm::gcm`. `usize` and `u128` lengths are natural numbers cut to 128 bits. -/
def gcm {ε : Type} (key iv data aad : Bytes) (encrypt : Bool) : Res ε (Bytes × Bytes) := do
  let blocksize ← Res.unwrap (Blocksize.new (key.length * 8))
  let aes ← AES.init key blocksize
  let H := toU128Be (aes.encrypt (zeros 16))
  let Yi := if iv.length * 8 ≠ 96 then gmult (absorb H iv 0#128 ^^^ BitVec.ofNat 128 (iv.length * 8)) H
    else toU128Be iv ||| 1#128
  let counter := if iv.length * 8 ≠ 96 then 0 else 1
  let authTag := toU128Be (aes.encrypt (u128ToBytesBe Yi))
  let X := absorb H aad 0#128
  let (_, X, output) ← (stepBy16 data.length).foldlM (dataStep aes H iv Yi encrypt data) (counter, X, [])
  let len := (BitVec.ofNat 128 (aad.length * 8) <<< 64) ||| BitVec.ofNat 128 (data.length * 8)
  let authTag := authTag ^^^ gmult (X ^^^ len) H
  .ok (output, u128ToBytesBe authTag)

/-- crypto/aes/gcm.rs:132-140 `Cipher::encrypt` for `Gcm`. -/
def encrypt (key iv plaintext aad : Bytes) : Res TlsError (Bytes × Bytes) := gcm key iv plaintext aad true

/-- crypto/aes/gcm.rs:142-157 `Cipher::decrypt` for `Gcm`. -/
def decrypt (key iv ciphertext aad authTag : Bytes) : Res TlsError Bytes := do
  let (P, T) ← gcm key iv ciphertext aad false
  if T ≠ authTag then .err .badRecordMac else .ok P

end ATLS.Model.Gcm
