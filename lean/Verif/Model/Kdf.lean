import Verif.Model.Sha
/-
Model of `anothertls/src/hash/mod.rs`, `hash/hmac.rs` and `hash/hkdf.rs`.
-/
namespace ATLS.Model
open ATLS

/-- hash/mod.rs:18-22 `HashType`; `as usize` is 32 or 48. -/
inductive HashType where
  | sha256
  | sha384
  deriving DecidableEq, Repr

/-- hash/mod.rs:18-22: `typ as usize` -/
def HashType.size : HashType → Nat
  | .sha256 => 32
  | .sha384 => 48

/-- hash/mod.rs:37-42 `sha_x`. -/
def shaX : HashType → Bytes → Bytes
  | .sha256 => sha256
  | .sha384 => sha384

/-- hash/mod.rs:24-35 `Box<dyn TranscriptHash>`: one of the two hash objects. -/
inductive TsHash where
  | s256 (s : Sha 32)
  | s384 (s : Sha 64)
  deriving DecidableEq

/-- hash/mod.rs:25-27: `TranscriptHash::new` of the implementation selected by the type. -/
def TsHash.new : HashType → TsHash
  | .sha256 => .s256 (Sha.new sha256Cfg)
  | .sha384 => .s384 (Sha.new sha384Cfg)

/-- hash/mod.rs:28: `TranscriptHash::update` -/
def TsHash.update (t : TsHash) (buf : Bytes) : TsHash :=
  match t with
  | .s256 s => .s256 (s.update sha256Cfg buf)
  | .s384 s => .s384 (s.update sha384Cfg buf)

/-- hash/mod.rs:32: `TranscriptHash::finalize(&self)` -/
def TsHash.finalize (t : TsHash) : Bytes :=
  match t with
  | .s256 s => s.finalize sha256Cfg
  | .s384 s => s.finalize sha384Cfg

/-- `TranscriptHash::get_type` (sha256.rs:184-186, sha384.rs:197-199) -/
def TsHash.getType : TsHash → HashType
  | .s256 _ => .sha256
  | .s384 _ => .sha384

/-- hash/hmac.rs:29-77 `Hmac::result` for the accumulated `input`. `padded_key` is a zeroed 128-byte array whose first bytes
are overwritten by the key (at most 64 bytes here, so the write is in range). -/
def hmacResult (hash : HashType) (key input : Bytes) : Bytes :=
  let size := if hash = .sha384 then 128 else 64
  let key' := if key.length > 64 then shaX hash key else key
  let padded := key' ++ zeros (128 - key'.length)
  let kOpad := (padded.take size).map (· ^^^ 0x5c#8)
  let kIpad := (padded.take size).map (· ^^^ 0x36#8)
  shaX hash (kOpad ++ shaX hash (kIpad ++ input))

/-- hash/hmac.rs:10-28: `Hmac::new` followed by `update` calls and `result`: the input is the concatenation of the updates. -/
def hmac (hash : HashType) (key : Bytes) (updates : List Bytes) : Bytes :=
  hmacResult hash key updates.flatten

/-- hash/hkdf.rs:10-13 `Hkdf`. -/
structure Hkdf where
  hash : HashType
  prk : Bytes
  deriving DecidableEq

/-- hash/hkdf.rs:24-32 `Hkdf::extract`. -/
def Hkdf.extract (hash : HashType) (salt ikm : Bytes) : Hkdf :=
  { hash := hash, prk := hmac hash salt [ikm] }

/-- The `while okm.len() < out_len` loop of hash/hkdf.rs:46-61. `i` is a `u8` incremented with overflow check
(panic at 255 + 1); `&last[..needed]` panics if the digest were shorter than `needed`. Fuel bounds the number of iterations. -/
def Hkdf.expandLoop (h : Hkdf) (info : Bytes) (outLen : Nat) : Nat → Nat → Bytes → Bytes → Res Empty Bytes
  | 0, _, _, okm => if okm.length < outLen then .panic else .ok okm
  | fuel + 1, i, last, okm =>
    if okm.length < outLen then
      if i = 255 then .panic
      else
        let i := i + 1
        let last := hmac h.hash h.prk [last, info, [BitVec.ofNat 8 i]]
        let needed := min outLen (okm.length + h.hash.size) - okm.length
        do
          let part ← slice last 0 needed
          Hkdf.expandLoop h info outLen fuel i last (okm ++ part)
    else .ok okm

/-- hash/hkdf.rs:35-63 `Hkdf::expand`: `None` when more than `255 * hash_len` bytes are requested. -/
def Hkdf.expand (h : Hkdf) (info : Bytes) (outLen : Nat) : Res Empty (Option Bytes) :=
  if outLen > h.hash.size * 255 then .ok none
  else do
    let okm ← h.expandLoop info outLen (outLen + 1) 0 [] []
    .ok (some okm)

end ATLS.Model
