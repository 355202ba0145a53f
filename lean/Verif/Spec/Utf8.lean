import Verif.Basic
/-
UTF-8 (RFC 3629).
-/
namespace ATLS.Spec.Utf8
open ATLS

/-- A Unicode scalar value: a code point that is not a surrogate. -/
def Scalar (c : Nat) : Prop := c < 0xD800 ∨ (0xE000 ≤ c ∧ c < 0x110000)

/-- RFC 3629 section 3: the encoding of a scalar value. -/
def encode (c : Nat) : Bytes :=
  if c < 0x80 then [BitVec.ofNat 8 c]
  else if c < 0x800 then [BitVec.ofNat 8 (0xC0 + c / 64), BitVec.ofNat 8 (0x80 + c % 64)]
  else if c < 0x10000 then [BitVec.ofNat 8 (0xE0 + c / 4096), BitVec.ofNat 8 (0x80 + c / 64 % 64), BitVec.ofNat 8 (0x80 + c % 64)]
  else [BitVec.ofNat 8 (0xF0 + c / 262144), BitVec.ofNat 8 (0x80 + c / 4096 % 64), BitVec.ofNat 8 (0x80 + c / 64 % 64),
    BitVec.ofNat 8 (0x80 + c % 64)]

/-- The encodings of character sequences. -/
def IsText (b : Bytes) : Prop := ∃ cs : List Nat, (∀ c ∈ cs, Scalar c) ∧ b = (cs.map encode).flatten

end ATLS.Spec.Utf8
