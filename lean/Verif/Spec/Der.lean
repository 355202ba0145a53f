import Verif.Spec.Common
/-
ASN.1 DER (ITU-T X.690) as far as X.509 certificates and ECDSA signatures need it.
-/
namespace ATLS.Spec.Der
open ATLS ATLS.Spec

/-- X.690 8.1.3 / 10.1: definite lengths in the minimal number of octets. -/
def length (n : Nat) : Bytes :=
  if n < 128 then [BitVec.ofNat 8 n]
  else if n < 2 ^ 8 then 0x81#8 :: beBytes 1 n
  else if n < 2 ^ 16 then 0x82#8 :: beBytes 2 n
  else if n < 2 ^ 24 then 0x83#8 :: beBytes 3 n
  else 0x84#8 :: beBytes 4 n

/-- Identifier octet, length octets, contents octets. -/
def tlv (tag : Byte) (body : Bytes) : Bytes := tag :: (length body.length ++ body)

/-- The number of octets of the two's complement representation of a natural number: one bit more than its binary digits
(zero has one digit). -/
def intLen (n : Nat) : Nat := (n.log2 + 1) / 8 + 1

/-- X.690 8.3: INTEGER, the shortest two's complement representation (of a non-negative number). -/
def integer (n : Nat) : Bytes := tlv 0x02#8 (beBytes (intLen n) n)

/-- X.690 8.9: SEQUENCE. -/
def sequence (body : Bytes) : Bytes := tlv 0x30#8 body

/-- RFC 3279 2.2.3: Ecdsa-Sig-Value ::= SEQUENCE { r INTEGER, s INTEGER }. -/
def ecdsaSig (r s : Nat) : Bytes := sequence (integer r ++ integer s)

end ATLS.Spec.Der
