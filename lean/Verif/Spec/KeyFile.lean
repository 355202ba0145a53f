import Verif.Spec.Pem
import Verif.Spec.Base64
import Verif.Spec.X509
/-
RFC 7468 files and RFC 5915 (SEC 1) private keys.
-/
namespace ATLS.Spec
open ATLS

/-- `text` is a file of PEM blocks with these titles and payloads, in this order: explanatory lines before the blocks and after the last one, Base64 in
lines of any width; `eol` ends every line. -/
def PemFile (eol : List Char) (text : List Char) (blocks : List (String × Bytes)) : Prop :=
  ∃ (bs : List PemBlock) (tail : List (List Char)), text = (bs.flatMap PemBlock.renderLines ++ tail).flatMap (fun l => l ++ eol) ∧
    (bs.map fun b => (b.title, b.payload)) = blocks.map (fun b => (b.1.toList, b.2)) ∧
    (∀ b ∈ bs, b.WellFormed ∧ b.lines.flatten = Base64.encode b.payload) ∧ ∀ l ∈ tail, '\n' ∉ l ∧ "-----BEGIN".toList.isPrefixOf l = false

/-- The payloads of the blocks with this title. -/
def titled (title : String) (blocks : List (String × Bytes)) : List Bytes := (blocks.filter (·.1 = title)).map (·.2)

namespace Sec1

/-- RFC 5915 section 3, the optional fields: `parameters [0] NamedCurve`, `publicKey [1] BIT STRING`. -/
def fields (curve : Option Bytes) (publicKey : Option Bytes) : Bytes :=
  (curve.elim [] fun oid => Der.tlv 0xa0#8 (X509.objectIdentifier oid)) ++ (publicKey.elim [] fun p => Der.tlv 0xa1#8 (X509.bitString p))

/-- RFC 5915 section 3: SEQUENCE { version INTEGER 1, privateKey OCTET STRING, ... }; the octet string has as many octets as the order of the curve. -/
def ecPrivateKey (octets : Nat) (key : Nat) (curve publicKey : Option Bytes) : Bytes :=
  Der.sequence (Der.integer 1 ++ Der.tlv 0x04#8 (beBytes octets key) ++ fields curve publicKey)

/-- The object identifier of secp384r1 (RFC 5480 section 2.1.1.1): 1.3.132.0.34. -/
def secp384r1 : Bytes := [0x2b, 0x81, 0x04, 0x00, 0x22]

end Sec1

end ATLS.Spec
