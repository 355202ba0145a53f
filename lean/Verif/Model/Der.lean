import Verif.Model.Ec
import Verif.Model.Alert
/-
Model of `anothertls/src/utils/der.rs` and of the DER part of `anothertls/src/crypto/ellipticcurve/signature.rs`.

`consumed: &mut usize` is an argument and a result; it is only read again by the callers when the call succeeded.
-/
namespace ATLS.Model
open ATLS

/-- utils/x509.rs:20-35 `ParseError`. -/
inductive ParseError where
  | algorithms | subjectPublicKeyInfo | utf8StringTimestamp | nameGet | nameAddValue | tbsBuilder | derParseType | derParseLen
  | version | utf8String | timeStamp | missingObjectIdentifier | notYetImplemented
  deriving DecidableEq, Repr

/-- utils/der.rs:12-25 `DerType`. -/
inductive DerType where
  | integer | bitString | octetString | null | objectIdentifier | utf8String | printableString | utcTime | generalizedTime
  | sequence | set | contextSpecific (tag : Nat)
  deriving DecidableEq, Repr

/-- utils/der.rs:28-32 `EncodedForm`. -/
inductive EncodedForm where
  | constructed (t : DerType)
  | primitive (t : DerType)
  deriving DecidableEq, Repr

/-- utils/der.rs:39-57, the type named by a tag. -/
def DerType.ofTag (tag : Byte) : Option DerType :=
  if tag >>> 6 &&& 3#8 = 2#8 then some (.contextSpecific (tag &&& 0xf#8).toNat)
  else match (tag &&& 0x1f#8).toNat with
    | 0x02 => some .integer
    | 0x03 => some .bitString
    | 0x04 => some .octetString
    | 0x05 => some .null
    | 0x06 => some .objectIdentifier
    | 0x0c => some .utf8String
    | 0x13 => some .printableString
    | 0x17 => some .utcTime
    | 0x18 => some .generalizedTime
    | 0x10 => some .sequence
    | 0x11 => some .set
    | 0x16 => some .utf8String
    | _ => none

/-- utils/der.rs:35-73 `DerType::from_u8`. -/
def DerType.fromU8 (tag : Byte) : Option EncodedForm :=
  match DerType.ofTag tag with
  | none => none
  | some t =>
    if tag >>> 5 &&& 1#8 = 1#8 then
      if t = .integer ∨ t = .objectIdentifier ∨ t = .null then none else some (.constructed t)
    else if t = .sequence ∨ t = .set then none
    else some (.primitive t)

/-- utils/der.rs:88-101 `get_len`: the length and the new position. The cast of the `u128` to `usize` keeps the low 64 bits. -/
def getLen {ε : Type} (len : Bytes) (consumed : Nat) : Res ε (Nat × Nat) := do
  let b ← idx len consumed
  if b >>> 7 &&& 1#8 = 1#8 then
    let n := (b &&& 0x7f#8).toNat
    let body ← slice len (consumed + 1) (consumed + 1 + n)
    .ok ((toU128BeFill body).toNat % 2 ^ 64, consumed + 1 + n)
  else .ok (b.toNat, consumed + 1)

/-- utils/der.rs:75-86 `der_parse`: length, type and the position of the contents. -/
def derParse (consumed : Nat) (data : Bytes) : Res ParseError (Nat × EncodedForm × Nat) := do
  let tag ← idx data consumed
  let t ← Res.okOr .derParseType (DerType.fromU8 tag)
  let (size, c) ← getLen data (consumed + 1)
  if size > data.length then .err .derParseLen else .ok (size, t, c)

namespace Signature

/-- crypto/ellipticcurve/signature.rs:25-59 `Signature::from_der`, with the loop over the three elements unrolled. Only the first element's type
is checked. -/
def fromDer (buf : Bytes) : Res TlsError (Signature × Nat) := do
  let (_, t, c) ← (derParse 0 buf).mapErr fun _ => TlsError.badCertificate
  if t ≠ .constructed .sequence then .err .badCertificate
  else
    let (size, _, c) ← (derParse c buf).mapErr fun _ => TlsError.badCertificate
    let r ← slice buf c (c + size)
    let c := c + size
    let (size, _, c) ← (derParse c buf).mapErr fun _ => TlsError.badCertificate
    let s ← slice buf c (c + size)
    .ok (⟨toIbigBe s, toIbigBe r⟩, c + size)

/-- crypto/ellipticcurve/signature.rs:71-77 and 79-85: one INTEGER with 32 value bytes. -/
def derInteger (b : Bytes) : Res TlsError Bytes := do
  let top ← idx b 0
  if top >>> 7 = 1#8 then .ok ([2#8, BitVec.ofNat 8 b.length + 1#8, 0#8] ++ b)
  else .ok ([2#8, BitVec.ofNat 8 b.length] ++ b)

/-- crypto/ellipticcurve/signature.rs:61-89 `to_der`. -/
def toDer (sig : Signature) : Res TlsError Bytes := do
  let s ← ibigTo32bytes sig.s .big
  let r ← ibigTo32bytes sig.r .big
  let r ← derInteger r
  let s ← derInteger s
  .ok ([0x30#8, BitVec.ofNat 8 (r ++ s).length] ++ r ++ s)

end Signature
end ATLS.Model
