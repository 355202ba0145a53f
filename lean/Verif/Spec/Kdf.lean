import Verif.Spec.Sha2
/-
RFC 2104 (HMAC) and RFC 5869 (HKDF), for an arbitrary hash function `H` with block size `B` and output size `L`.
-/
namespace ATLS.Spec
open ATLS

/-- A hash function with its block and output size in bytes. -/
structure Hash where
  H : Bytes → Bytes
  block : Nat
  out : Nat

/-- SHA-256 and SHA-384 as hash functions. -/
def hashSha256 : Hash := ⟨Sha2.sha256, 64, 32⟩
def hashSha384 : Hash := ⟨Sha2.sha384, 128, 48⟩

/-- RFC 2104 section 2: keys longer than the block size are hashed, then padded with zeros to the block size. -/
def hmacKey (h : Hash) (key : Bytes) : Bytes :=
  let k := if key.length > h.block then h.H key else key
  k ++ zeros (h.block - k.length)

/-- RFC 2104: `H(K XOR opad, H(K XOR ipad, text))`. -/
def hmac (h : Hash) (key text : Bytes) : Bytes :=
  let k := hmacKey h key
  h.H (k.map (· ^^^ 0x5c#8) ++ h.H (k.map (· ^^^ 0x36#8) ++ text))

/-- RFC 5869 section 2.2. -/
def hkdfExtract (h : Hash) (salt ikm : Bytes) : Bytes := hmac h salt ikm

/-- RFC 5869 section 2.3: `T(i) = HMAC-Hash(PRK, T(i-1) | info | i)`. -/
def hkdfT (h : Hash) (prk info : Bytes) : Nat → Bytes
  | 0 => []
  | i + 1 => hmac h prk (hkdfT h prk info i ++ info ++ [BitVec.ofNat 8 (i + 1)])

/-- `T(1) | T(2) | … | T(n)`. -/
def hkdfTs (h : Hash) (prk info : Bytes) (n : Nat) : Bytes :=
  (List.range n).flatMap fun i => hkdfT h prk info (i + 1)

/-- RFC 5869 section 2.3: the first `len` octets of `T(1) | … | T(⌈len/HashLen⌉)`. -/
def hkdfExpand (h : Hash) (prk info : Bytes) (len : Nat) : Bytes :=
  (hkdfTs h prk info ((len + h.out - 1) / h.out)).take len

end ATLS.Spec
