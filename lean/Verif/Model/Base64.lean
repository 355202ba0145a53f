import Verif.Basic
/-
Model of `anothertls/src/utils/base64.rs` and `anothertls/src/utils/pem.rs`. Strings are lists of characters.
-/
namespace ATLS.Model
open ATLS

/-- utils/base64.rs:6 `CHARS`. -/
def b64Chars : List Char :=
  "ABCDEFGHIJKLMNOPQRSTUVWXYZabcdefghijklmnopqrstuvwxyz0123456789+/".toList

/-- utils/base64.rs:28-34: `CHARS.chars().nth(a as usize).unwrap()`; every index used is masked with 63, hence in range. -/
def b64Char (a : Byte) : Char := b64Chars.getD a.toNat '='

/-- utils/base64.rs:27-34: the four characters of one group. -/
def b64Group (t0 t1 t2 : Byte) : List Char :=
  [b64Char (t0 >>> 2 &&& 63#8),
   b64Char (((t0 &&& 3#8) <<< 4 ||| (t1 >>> 4)) &&& 63#8),
   b64Char (((t1 &&& 15#8) <<< 2 ||| (t2 >>> 6)) &&& 63#8),
   b64Char (t2 &&& 63#8)]

/-- utils/base64.rs:15-35: the `while` loop, returning the characters and the counter `add` of missing bytes. -/
def b64EncodeLoop : Bytes → List Char × Nat
  | [] => ([], 0)
  | [a] => (b64Group a 0 0, 2)
  | [a, b] => (b64Group a b 0, 1)
  | a :: b :: c :: rest =>
    let r := b64EncodeLoop rest
    (b64Group a b c ++ r.1, r.2)

/-- utils/base64.rs:9-45 `encode`: the last `add` characters are replaced by `=`. -/
def b64Encode (input : Bytes) : List Char :=
  let r := b64EncodeLoop input
  r.1.take (r.1.length - r.2) ++ List.replicate r.2 '='

/-- `reverse_characters[ch as usize]` (utils/base64.rs:56-60, 78): a table of `'z' + 1` entries, zero where no character was
registered; indexing beyond `'z'` panics. -/
def b64Rev (ch : Char) : Res Empty Byte :=
  if ch.toNat ≤ 'z'.toNat then
    .ok (if ch ∈ b64Chars then BitVec.ofNat 8 (b64Chars.idxOf ch) else 0#8)
  else .panic

/-- utils/base64.rs:69-80: one of the four positions of a group (`i` is the position); returns the value, the increment of
`padding_len` and the remaining characters. -/
def b64Next (i : Nat) (iter : List Char) : Res Empty (Byte × Nat × List Char) :=
  let (ch, rest) := match iter with
    | c :: cs => (c, cs)
    | [] => (if i + 1 ≤ 2 then '=' else Char.ofNat 0, [])
  if ch = '=' then .ok (0#8, 1, rest)
  else do
    let t ← b64Rev ch
    .ok (t, 0, rest)

/-- utils/base64.rs:67-85: the `while consumed < input.len()` loop, one iteration per four bytes of input. -/
def b64DecodeLoop : Nat → List Char → Bytes → Nat → Res Empty (Bytes × Nat)
  | 0, _, out, pad => .ok (out, pad)
  | k + 1, iter, out, pad => do
    let (t0, p0, iter) ← b64Next 0 iter
    let (t1, p1, iter) ← b64Next 1 iter
    let (t2, p2, iter) ← b64Next 2 iter
    let (t3, p3, iter) ← b64Next 3 iter
    b64DecodeLoop k iter
      (out ++ [(t0 <<< 2) ||| (t1 >>> 4), (t1 <<< 4) ||| (t2 >>> 2), (t2 <<< 6) ||| t3])
      (pad + p0 + p1 + p2 + p3)

/-- utils/base64.rs:48: `input.len()`: length of the UTF-8 encoding. -/
def utf8Len (s : List Char) : Nat := (s.map Char.utf8Size).sum

/-- utils/base64.rs:47-92 `decode`; `out.pop()` once per padding character (no effect on an empty vector). -/
def b64Decode (input : List Char) : Res Empty (Option Bytes) :=
  if utf8Len input % 4 ≠ 0 then .ok none
  else do
    let (out, pad) ← b64DecodeLoop (utf8Len input / 4) input [] 0
    .ok (some (out.take (out.length - pad)))

/-! ### pem.rs -/

/-- utils/pem.rs:10-15 `PemState`. -/
inductive PemState where
  | start
  | inContent
  | fin
  deriving DecidableEq, Repr

/-- The loop variables of utils/pem.rs:22-25. The `HashMap` is an association list, newest binding first. -/
structure PemSt where
  content : List (List Char × Bytes)
  state : PemState
  title : List Char
  cur : List Char
  deriving DecidableEq

/-- `line.starts_with(prefix)` -/
def startsWith (line pre : List Char) : Bool := pre.isPrefixOf line

/-- utils/pem.rs:26-46: one line. The slice `line[11..(line.len() - 5)]` panics when `line.len() - 5 < 11`.
(Simplification: slicing is by characters; the Rust code slices by bytes, the same for ASCII lines.) -/
def pemLine (s : PemSt) (line : List Char) : Res Unit PemSt :=
  match s.state with
  | .inContent =>
    if startsWith line "-----END".toList then
      match b64Decode s.cur with
      | .ok (some raw) => .ok { content := (s.title, raw) :: s.content, state := .fin, title := s.title, cur := [] }
      | .ok none => .err ()
      | .err e => nomatch e
      | .panic => .panic
    else .ok { s with cur := s.cur ++ line }
  | .fin | .start =>
    if startsWith line "-----BEGIN".toList then
      if 11 ≤ line.length - 5 then
        .ok { s with title := (line.take (line.length - 5)).drop 11, state := .inContent }
      else .panic
    else .ok s

/-- The loop over the lines. -/
def pemLines : PemSt → List (List Char) → Res Unit PemSt
  | s, [] => .ok s
  | s, l :: ls => do
    let s ← pemLine s l
    pemLines s ls

/-- utils/pem.rs:26: `pem.split('\n')`. -/
def splitLines : List Char → List (List Char)
  | [] => [[]]
  | c :: cs =>
    if c = '\n' then [] :: splitLines cs
    else match splitLines cs with
      | l :: ls => (c :: l) :: ls
      | [] => [[c]]

/-- utils/pem.rs:17-50 `get_pem_content_from_file`, on the text of the file. `err ()` is `None`. -/
def pemContent (text : List Char) : Res Unit (List (List Char × Bytes)) := do
  let s ← pemLines { content := [], state := .start, title := [], cur := [] } (splitLines text)
  if s.state = .fin then .ok s.content else .err ()

end ATLS.Model
