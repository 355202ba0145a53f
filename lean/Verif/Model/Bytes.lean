import Verif.Basic
/-
Model of `anothertls/src/utils/bytes.rs`.
-/
namespace ATLS.Model
open ATLS

/-- utils/bytes.rs:8-14 `to_ibig_le`: `res += byte << (i*8)`. -/
def toIbigLe (bytes : Bytes) : Nat :=
  bytes.zipIdx.foldl (fun res p => res + p.1.toNat <<< (p.2 * 8)) 0

/-- utils/bytes.rs:15-21 `to_ibig_be`: `res += byte << ((len-1)*8 - i*8)`.
The subtraction `len - 1` is only evaluated inside the loop, i.e. for a non-empty slice. -/
def toIbigBe (bytes : Bytes) : Nat :=
  bytes.zipIdx.foldl (fun res p => res + p.1.toNat <<< ((bytes.length - 1) * 8 - p.2 * 8)) 0

/-- utils/bytes.rs:22-26 `ByteOrder`. -/
inductive ByteOrder where
  | little
  | big
  deriving DecidableEq, Repr

/-- utils/bytes.rs:32: `ibig::UBig::to_le_bytes`: the minimal little-endian representation, empty for zero
(library routine; the fuel bounds the number of bytes). -/
def ubigLeAux : Nat → Nat → Bytes
  | 0, _ => []
  | fuel + 1, n => if n = 0 then [] else BitVec.ofNat 8 n :: ubigLeAux fuel (n / 256)

/-- utils/bytes.rs:32: `ibig::UBig::to_le_bytes`. A number has at most `log2 n / 8 + 1` bytes. -/
def ubigLe (n : Nat) : Bytes := ubigLeAux (n.log2 / 8 + 1) n

/-- utils/bytes.rs:27-34 `ibig_to_vec`. `UBig::try_from(num).unwrap()` panics for a negative number. -/
def ibigToVec {ε : Type} (num : Int) (order : ByteOrder) : Res ε Bytes :=
  if num < 0 then .panic
  else .ok (if order = .big then (ubigLe num.toNat).reverse else ubigLe num.toNat)

/-- utils/bytes.rs:35-45 `ibig_to_32bytes`: copies the minimal representation to the *front* of a zeroed
32-byte array, dropping what does not fit. -/
def ibigTo32bytes {ε : Type} (num : Int) (order : ByteOrder) : Res ε Bytes := do
  let b ← ibigToVec num order
  .ok (b.take 32 ++ zeros (32 - b.length))

/-- utils/bytes.rs:46-52 `u128_to_bytes_be`. -/
def u128ToBytesBe (num : BitVec 128) : Bytes :=
  (List.range 16).map fun i => (num >>> (15 * 8 - i * 8)).setWidth 8

/-- utils/bytes.rs:54-67 `str_to_u8`, on the first character of a string (as byte). `&s[..1]` panics on an empty
string or when the first character is not ASCII; callers index with `&s[..1]` first, see `strToU16`. -/
def strToU8 (c : Byte) : Nat :=
  if 0x31 ≤ c.toNat ∧ c.toNat ≤ 0x39 then c.toNat - 0x30 else 0

/-- utils/bytes.rs:68-70 `str_to_u16` on a two-character slice; slicing `&s[..1]`, `&s[1..2]` panics
when shorter or when a cut is not on a character boundary (modelled: a byte ≥ 0x80 among the two). -/
def strToU16 {ε : Type} (s : Bytes) : Res ε Nat :=
  match s with
  | a :: b :: _ => if a.toNat < 0x80 ∧ b.toNat < 0x80 then .ok (strToU8 a * 10 + strToU8 b) else .panic
  | _ => .panic

/-- utils/bytes.rs:87-95 `to_u16`. -/
def toU16 (buf : Bytes) : Nat :=
  match buf with
  | [] => 0
  | [a] => a.toNat
  | a :: b :: _ => (a.toNat <<< 8) ||| b.toNat

/-- utils/bytes.rs:110-121 `to_u128_be`: at most the first 16 bytes, the first byte is the most significant,
missing bytes count as zeros at the END. -/
def toU128Be (bytes : Bytes) : BitVec 128 :=
  (bytes.take 16).zipIdx.foldl (fun (res : BitVec 128) (p : Byte × Nat) => res + (p.1.setWidth 128) <<< (15 * 8 - p.2 * 8)) 0#128

/-- utils/bytes.rs:96-109 `to_u128_be_fill`: shorter inputs are filled with zeros at the front. -/
def toU128BeFill (bytes : Bytes) : BitVec 128 :=
  if bytes.length < 16 then toU128Be (zeros (16 - bytes.length) ++ bytes)
  else toU128Be (bytes.take 16)

/-- utils/bytes.rs:122-133 `to_u128_le`. -/
def toU128Le (bytes : Bytes) : BitVec 128 :=
  (bytes.take 16).zipIdx.foldl (fun (res : BitVec 128) (p : Byte × Nat) => res + (p.1.setWidth 128) <<< (p.2 * 8)) 0#128

/-- utils/bytes.rs:134-140 `to_u64_le` (despite the name, most significant byte first); `bytes[..8]` panics when shorter. -/
def toU64Le {ε : Type} (bytes : Bytes) : Res ε (BitVec 64) := do
  let b ← slice bytes 0 8
  .ok (b.zipIdx.foldl (fun (res : BitVec 64) (p : Byte × Nat) => res + (p.1.setWidth 64) <<< (7 * 8 - p.2 * 8)) 0#64)

/-- utils/bytes.rs:141-147 `u64_to_bytes_le`. -/
def u64ToBytesLe (num : BitVec 64) : Bytes :=
  (List.range 8).map fun i => (num >>> (i * 8)).setWidth 8

/-- utils/bytes.rs:152: The lower-case hexadecimal digit of a value below 16 (as printed by `format!("{:x}")`), as an ASCII byte. -/
def hexDigit (n : Nat) : Byte :=
  BitVec.ofNat 8 (if n < 10 then 0x30 + n else 0x61 + (n - 10))

/-- utils/bytes.rs:150-155 `to_hex` (the resulting ASCII text as bytes). -/
def toHex (b : Bytes) : Bytes :=
  b.flatMap fun x => [hexDigit (x.toNat / 16), hexDigit (x.toNat % 16)]

/-- utils/bytes.rs:165: `char::to_digit(16)` as used by `u8::from_str_radix(_, 16)`. -/
def hexVal (c : Byte) : Option Nat :=
  if 0x30 ≤ c.toNat ∧ c.toNat ≤ 0x39 then some (c.toNat - 0x30)
  else if 0x61 ≤ c.toNat ∧ c.toNat ≤ 0x66 then some (c.toNat - 0x61 + 10)
  else if 0x41 ≤ c.toNat ∧ c.toNat ≤ 0x46 then some (c.toNat - 0x41 + 10)
  else none

/-- utils/bytes.rs:158-171: The pairs of `from_hex`. `u8::from_str_radix` also accepts a leading `+` followed by one digit. -/
def fromHexPairs {ε : Type} : Bytes → Res ε Bytes
  | [] => .ok []
  | [_] => .panic
  | a :: b :: rest =>
    let v := match hexVal a, hexVal b with
      | some x, some y => some (x * 16 + y)
      | none, some y => if a = 0x2b#8 then some y else none
      | _, _ => none
    match v with
    | some v => do let r ← fromHexPairs rest; .ok (BitVec.ofNat 8 v :: r)
    | none => .panic

/-- utils/bytes.rs:159-172 `from_hex` on ASCII text: panics on odd length or a non-hexadecimal pair. -/
def fromHex {ε : Type} (s : Bytes) : Res ε Bytes :=
  if s.length % 2 = 0 then fromHexPairs s else .panic

end ATLS.Model
