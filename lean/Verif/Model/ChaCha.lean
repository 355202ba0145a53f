import Verif.Model.Bytes
import Verif.Model.Alert
/-
Model of `anothertls/src/crypto/chacha20/cipher.rs` and `anothertls/src/crypto/chacha20/poly1305.rs`.
-/
namespace ATLS.Model
open ATLS

/-- crypto/chacha20/cipher.rs:94, poly1305.rs:32: `n as f32`: a natural number rounded to 24 significant binary digits (to nearest, ties to even). -/
def f32OfNat (n : Nat) : Nat :=
  if n < 2 ^ 24 then n
  else
    let e := n.log2 - 23
    let q := n >>> e
    let r := n % 2 ^ e
    let up := 2 ^ (e - 1) < r ∨ (r = 2 ^ (e - 1) ∧ q % 2 = 1)
    (if up then q + 1 else q) * 2 ^ e

/-- crypto/chacha20/cipher.rs:94, poly1305.rs:32: `(n as f32 / b.0).ceil() as usize` for a power of two `b`: the division by a power of two is exact. -/
def f32CeilDiv (n b : Nat) : Nat := (f32OfNat n + (b - 1)) / b

namespace ChaCha

/-- crypto/chacha20/cipher.rs:8-10 `u8_to_u32_le` (all callers pass at least four bytes). -/
def u8ToU32Le (b : Bytes) : BitVec 32 :=
  (b.getD 0 0).setWidth 32 ||| ((b.getD 1 0).setWidth 32 <<< 8) ||| ((b.getD 2 0).setWidth 32 <<< 16) |||
    ((b.getD 3 0).setWidth 32 <<< 24)

/-- crypto/chacha20/cipher.rs:12-15 `ChaCha20Block`: the sixteen words. -/
abbrev Block := List (BitVec 32)

/-- crypto/chacha20/cipher.rs:18-38 `ChaCha20Block::init`. -/
def Block.init (key iv : Bytes) (counter : BitVec 32) : Option Block :=
  if key.length ≠ 32 ∨ iv.length ≠ 12 then none
  else
    some ([0x61707865#32, 0x3320646e#32, 0x79622d32#32, 0x6b206574#32] ++
      (List.range 8).map (fun i => u8ToU32Le (key.drop (i * 4))) ++ [counter] ++
      (List.range 3).map (fun i => u8ToU32Le (iv.drop (i * 4))))

/-- crypto/chacha20/cipher.rs:40-42 `set_counter`. -/
def Block.setCounter (b : Block) (counter : BitVec 32) : Block := b.set 12 counter

/-- crypto/chacha20/cipher.rs:44-55 `qround`, assignment by assignment. -/
def Block.qround (x : Block) (a b c d : Nat) : Block :=
  let x := x.set a (x.getD a 0 + x.getD b 0)
  let x := x.set d ((x.getD d 0 ^^^ x.getD a 0).rotateLeft 16)
  let x := x.set c (x.getD c 0 + x.getD d 0)
  let x := x.set b ((x.getD b 0 ^^^ x.getD c 0).rotateLeft 12)
  let x := x.set a (x.getD a 0 + x.getD b 0)
  let x := x.set d ((x.getD d 0 ^^^ x.getD a 0).rotateLeft 8)
  let x := x.set c (x.getD c 0 + x.getD d 0)
  x.set b ((x.getD b 0 ^^^ x.getD c 0).rotateLeft 7)

/-- crypto/chacha20/cipher.rs:61-68: the eight quarter rounds of one iteration. -/
def Block.doubleRound (x : Block) : Block :=
  let x := x.qround 0 4 8 12
  let x := x.qround 1 5 9 13
  let x := x.qround 2 6 10 14
  let x := x.qround 3 7 11 15
  let x := x.qround 0 5 10 15
  let x := x.qround 1 6 11 12
  let x := x.qround 2 7 8 13
  x.qround 3 4 9 14

/-- crypto/chacha20/cipher.rs:57-86 `get_block`. -/
def Block.getBlock (initial : Block) : Bytes :=
  let x := Nat.repeat Block.doubleRound 10 initial
  let x : Block := List.zipWith (· + ·) x initial
  x.flatMap fun (s : BitVec 32) => [s.setWidth 8, (s >>> 8).setWidth 8, (s >>> 16).setWidth 8, (s >>> 24).setWidth 8]

/-- crypto/chacha20/cipher.rs:103-105: `for i in 0..count { output[off + i] ^= key_stream[i] }`; indexing past the end panics. -/
def xorAt {ε : Type} (output : Bytes) (off count : Nat) (ks : Bytes) : Res ε Bytes :=
  if count = 0 then .ok output
  else if off + count ≤ output.length then
    .ok (output.take off ++ xorBytes ((output.drop off).take count) ks ++ output.drop (off + count))
  else .panic

/-- crypto/chacha20/cipher.rs:95-106: one iteration of the block loop. The lazily evaluated `?` returns `None` (error `()`). -/
def encStep (chacha : Option Block) (len counter : Nat) (output : Bytes) (j : Nat) : Res Unit Bytes :=
  match chacha with
  | none => .err ()
  | some blk =>
    let keyStream := (blk.setCounter (BitVec.ofNat 32 (counter + j))).getBlock
    let count := if j * 64 + 64 ≥ len then len % 64 else keyStream.length
    xorAt output (j * 64) count keyStream

/-- crypto/chacha20/cipher.rs:91-108 `ChaCha20::encrypt`; `None` is the error `()`. -/
def encrypt (input key iv : Bytes) (counter : Nat) : Res Unit Bytes :=
  (List.range (f32CeilDiv input.length 64)).foldlM (encStep (Block.init key iv 0#32) input.length counter) input

/-- crypto/chacha20/cipher.rs:109-111 `ChaCha20::decrypt`. -/
def decrypt (input key iv : Bytes) (counter : Nat) : Res Unit Bytes := encrypt input key iv counter

end ChaCha

namespace Poly1305
open ChaCha

/-- crypto/chacha20/poly1305.rs:19-22 `key_gen`. -/
def keyGen {ε : Type} (key iv : Bytes) : Res ε Bytes := do
  let b ← Res.unwrap (Block.init key iv 0#32)
  .ok (b.getBlock.take 32)

/-- crypto/chacha20/poly1305.rs:30 `p`. -/
def p : Nat := 0x3fffffffffffffffffffffffffffffffb

/-- crypto/chacha20/poly1305.rs:33-44: one iteration; `msg[(i-1)*16..]` panics when it starts past the end. -/
def macStep {ε : Type} (r : Nat) (msg : Bytes) (a i : Nat) : Res ε Nat := do
  let n ← if i * 16 > msg.length then do
      let buf ← sliceFrom msg ((i - 1) * 16)
      .ok (toIbigLe (buf ++ [1#8]))
    else .ok (toIbigLe ((msg.drop ((i - 1) * 16)).take 16) + 0x100000000000000000000000000000000)
  .ok ((r * (a + n)) % p)

/-- crypto/chacha20/poly1305.rs:49, 54: `Vec::resize(n, 0)`. -/
def resize (b : Bytes) (n : Nat) : Bytes := b.take n ++ zeros (n - b.length)

/-- crypto/chacha20/poly1305.rs:24-51 `mac`; `key[..16]` and `key[16..32]` panic when the key is too short. -/
def mac {ε : Type} (key msg : Bytes) : Res ε Bytes := do
  let k0 ← slice key 0 16
  let r := toIbigLe k0 &&& 0x0ffffffc0ffffffc0ffffffc0fffffff
  let k1 ← slice key 16 32
  let s := toIbigLe k1
  let a ← (List.range' 1 (f32CeilDiv msg.length 16)).foldlM (macStep r msg) 0
  .ok (resize (ubigLe (a + s)) 16)

/-- crypto/chacha20/poly1305.rs:52-56 `pad16`. -/
def pad16 (input : Bytes) (x : Nat) : Bytes :=
  if x % 16 ≠ 0 then resize input (input.length + (16 - x % 16)) else input

/-- crypto/chacha20/poly1305.rs:57-66 `get_mac_data`. -/
def getMacData (ciphertext aad : Bytes) : Bytes :=
  let m := pad16 aad aad.length
  let m := pad16 (m ++ ciphertext) ciphertext.length
  m ++ u64ToBytesLe (BitVec.ofNat 64 aad.length) ++ u64ToBytesLe (BitVec.ofNat 64 ciphertext.length)

/-- crypto/chacha20/poly1305.rs:70-81 `Cipher::encrypt` for `Poly1305`; `unwrap` panics on `None`. -/
def encrypt (key iv plaintext aad : Bytes) : Res TlsError (Bytes × Bytes) := do
  let ciphertext ← match ChaCha.encrypt plaintext key iv 1 with
    | .ok c => Res.ok c
    | _ => .panic
  let otk ← keyGen key iv
  let tag ← mac otk (getMacData ciphertext aad)
  .ok (ciphertext, tag)

/-- crypto/chacha20/poly1305.rs:83-99 `Cipher::decrypt` for `Poly1305`. -/
def decrypt (key iv ciphertext aad authTag : Bytes) : Res TlsError Bytes := do
  let otk ← keyGen key iv
  let tag ← mac otk (getMacData ciphertext aad)
  if tag = authTag then
    match ChaCha.decrypt ciphertext key iv 1 with
    | .ok p => .ok p
    | .err () => .err .badRecordMac
    | .panic => .panic
  else .err .badRecordMac

end Poly1305
end ATLS.Model
