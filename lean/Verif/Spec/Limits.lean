import Verif.Spec.X509
/-
RFC 5280: what a certificate says about its own use: the name of its issuer and its extensions.
-/
namespace ATLS.Spec.X509
open ATLS ATLS.Spec

/-- RFC 5280 4.1: Extension ::= SEQUENCE { extnID, critical BOOLEAN DEFAULT FALSE, extnValue OCTET STRING }; `value`: the DER encoding inside
the OCTET STRING. -/
structure Extension where
  oid : Bytes
  critical : Bool
  value : Bytes
  deriving DecidableEq, Repr

def Extension.encode (e : Extension) : Bytes :=
  Der.sequence (objectIdentifier e.oid ++ ((if e.critical then Der.tlv 0x01#8 [0xff#8] else []) ++ Der.tlv 0x04#8 e.value))

/-- The contents of the [3] element. -/
def extensionList (es : List Extension) : Bytes := Der.sequence (es.map Extension.encode).flatten

/-- 2.5.29.15, 2.5.29.37, 1.3.6.1.5.5.7.3.2 and 2.5.29.37.0 -/
def idKeyUsage : Bytes := [0x55, 0x1d, 0x0f]
def idExtKeyUsage : Bytes := [0x55, 0x1d, 0x25]
def idClientAuth : Bytes := [0x2b, 0x06, 0x01, 0x05, 0x05, 0x07, 0x03, 0x02]
def idAnyUsage : Bytes := [0x55, 0x1d, 0x25, 0x00]

/-- The extensions RFC 5280 4.2 requires applications to recognise: key usage, certificate policies, subject alternative name, basic
constraints, name constraints, policy constraints, extended key usage and inhibit anyPolicy. -/
def recognised : List Bytes :=
  [idKeyUsage, [0x55, 0x1d, 0x20], [0x55, 0x1d, 0x11], [0x55, 0x1d, 0x13], [0x55, 0x1d, 0x1e], [0x55, 0x1d, 0x24], idExtKeyUsage, [0x55, 0x1d, 0x36]]

/-- The certificate `t` with the extensions `es` may serve as a client's certificate issued by the CA with the certificate `ca`. -/
structure AllowsClient (ca t : Tbs) (es : List Extension) : Prop where
  /-- 6.1.3 (a)(4): the issuer is the subject of the CA. -/
  issuer : t.issuer = ca.subject
  /-- 4.2: an unrecognised critical extension is a reason for rejection. -/
  critical : ∀ e ∈ es, e.critical = true → e.oid ∈ recognised
  /-- 4.2.1.3: a key usage extension has the bit digitalSignature. -/
  usage : ∀ e ∈ es, e.oid = idKeyUsage → ∃ unused bits more, e.value = Der.tlv 0x03#8 (unused :: bits :: more) ∧ bits.getMsbD 0 = true
  /-- 4.2.1.12: an extended key usage extension names the authentication of clients, or any purpose. -/
  purpose : ∀ e ∈ es, e.oid = idExtKeyUsage → ∃ purposes : List Bytes, e.value = Der.sequence (purposes.map objectIdentifier).flatten ∧
    (idClientAuth ∈ purposes ∨ idAnyUsage ∈ purposes)

end ATLS.Spec.X509
