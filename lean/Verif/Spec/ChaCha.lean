import Verif.Spec.Common
/-
RFC 8439: ChaCha20, Poly1305 and AEAD_CHACHA20_POLY1305.
-/
namespace ATLS.Spec.ChaCha
open ATLS ATLS.Spec

abbrev Word := BitVec 32

/-- The ChaCha state: word number `i`. -/
abbrev State := Nat → Word

/-- Section 2.1: the quarter round on four words. -/
def quarterRound (a b c d : Word) : Word × Word × Word × Word :=
  let a := a + b; let d := (d ^^^ a).rotateLeft 16
  let c := c + d; let b := (b ^^^ c).rotateLeft 12
  let a := a + b; let d := (d ^^^ a).rotateLeft 8
  let c := c + d; let b := (b ^^^ c).rotateLeft 7
  (a, b, c, d)

/-- Section 2.2: QUARTERROUND(x, y, z, w) on a state. -/
def QUARTERROUND (s : State) (x y z w : Nat) : State :=
  let (a, b, c, d) := quarterRound (s x) (s y) (s z) (s w)
  fun i => if i = x then a else if i = y then b else if i = z then c else if i = w then d else s i

/-- Section 2.3.1: four column rounds and four diagonal rounds. -/
def innerBlock (s : State) : State :=
  let s := QUARTERROUND s 0 4 8 12
  let s := QUARTERROUND s 1 5 9 13
  let s := QUARTERROUND s 2 6 10 14
  let s := QUARTERROUND s 3 7 11 15
  let s := QUARTERROUND s 0 5 10 15
  let s := QUARTERROUND s 1 6 11 12
  let s := QUARTERROUND s 2 7 8 13
  QUARTERROUND s 3 4 9 14

/-- A little-endian word read from a byte string. -/
def leWord (b : Bytes) (i : Nat) : Word := BitVec.ofNat 32 (leNat ((b.drop (4 * i)).take 4))

/-- Section 2.3: the initial state: constants, key, counter, nonce. -/
def initial (key : Bytes) (counter : Word) (nonce : Bytes) : State := fun i =>
  if i < 4 then leWord (ascii "expand 32-byte k") i
  else if i < 12 then leWord key (i - 4)
  else if i = 12 then counter
  else leWord nonce (i - 13)

/-- Section 2.3: the 64 bytes of key stream block number `counter`. -/
def block (key : Bytes) (counter : Word) (nonce : Bytes) : Bytes :=
  let s := initial key counter nonce
  let w := Nat.repeat innerBlock 10 s
  (List.range 16).flatMap fun i => leBytes 4 (w i + s i).toNat

/-- Section 2.4: byte `i` of the message is XORed with byte `i % 64` of key stream block `counter + i / 64`. -/
def encrypt (key : Bytes) (counter : Nat) (nonce m : Bytes) : Bytes :=
  m.mapIdx fun i b => b ^^^ (block key (BitVec.ofNat 32 (counter + i / 64)) nonce).getD (i % 64) 0

/-- Section 2.5: `p = 2^130 - 5`. -/
def p : Nat := 2 ^ 130 - 5

/-- Section 2.5: clamping. -/
def clamp (r : Nat) : Nat := r &&& 0x0ffffffc0ffffffc0ffffffc0fffffff

/-- Section 2.5: the accumulator over the 16-byte blocks (the last one possibly shorter), a one byte appended to each. -/
def accumulate (r : Nat) (m : Bytes) : Nat :=
  (chunks 16 m).foldl (fun a b => (a + leNat (b ++ [1])) * r % p) 0

/-- Section 2.5: Poly1305. -/
def mac (key m : Bytes) : Bytes :=
  let r := clamp (leNat (key.take 16))
  let s := leNat ((key.drop 16).take 16)
  leBytes 16 (accumulate r m + s)

/-- Section 2.8: `pad16`. -/
def pad16 (x : Bytes) : Bytes := x ++ zeros ((16 - x.length % 16) % 16)

/-- Section 2.8: the string authenticated by AEAD_CHACHA20_POLY1305. -/
def macData (aad ciphertext : Bytes) : Bytes :=
  pad16 aad ++ pad16 ciphertext ++ leBytes 8 aad.length ++ leBytes 8 ciphertext.length

/-- Section 2.6: the one-time key. -/
def otk (key nonce : Bytes) : Bytes := (block key 0 nonce).take 32

/-- Section 2.8: the tag of a ciphertext. -/
def tag (key nonce aad ciphertext : Bytes) : Bytes := mac (otk key nonce) (macData aad ciphertext)

/-- Section 2.8: ciphertext and tag. -/
def aeadEncrypt (key nonce aad plaintext : Bytes) : Bytes × Bytes :=
  let c := encrypt key 1 nonce plaintext
  (c, tag key nonce aad c)

end ATLS.Spec.ChaCha
