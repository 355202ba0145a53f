import Verif.Basic
/-
Model of the library function `String::from_utf8` used in net/extensions/server_name.rs:56 and utils/x509.rs: a Rust `String` is modelled
by its bytes, and this is the test whether bytes form a string (the well-formed byte sequences of the Unicode standard, table 3-7).
`Verif/Proof/Utf8.lean` proves that it accepts exactly the UTF-8 encodings of character sequences.
-/
namespace ATLS.Model
open ATLS

/-- net/extensions/server_name.rs:56, utils/x509.rs:559, 575: A continuation byte. -/
def utf8Cont (b : Byte) : Bool := 0x80 ≤ b.toNat && b.toNat ≤ 0xBF

/-- net/extensions/server_name.rs:56, utils/x509.rs:559, 575: `String::from_utf8(bytes).is_ok()` -/
def utf8Valid : Bytes → Bool
  | [] => true
  | b0 :: rest =>
    if b0.toNat < 0x80 then utf8Valid rest
    else if 0xC2 ≤ b0.toNat ∧ b0.toNat ≤ 0xDF then
      match rest with
      | b1 :: r => utf8Cont b1 && utf8Valid r
      | _ => false
    else if 0xE0 ≤ b0.toNat ∧ b0.toNat ≤ 0xEF then
      match rest with
      | b1 :: b2 :: r =>
        (utf8Cont b1 && utf8Cont b2 && (b0.toNat ≠ 0xE0 || 0xA0 ≤ b1.toNat) && (b0.toNat ≠ 0xED || b1.toNat ≤ 0x9F)) && utf8Valid r
      | _ => false
    else if 0xF0 ≤ b0.toNat ∧ b0.toNat ≤ 0xF4 then
      match rest with
      | b1 :: b2 :: b3 :: r =>
        (utf8Cont b1 && utf8Cont b2 && utf8Cont b3 && (b0.toNat ≠ 0xF0 || 0x90 ≤ b1.toNat) && (b0.toNat ≠ 0xF4 || b1.toNat ≤ 0x8F)) &&
          utf8Valid r
      | _ => false
    else false

end ATLS.Model
