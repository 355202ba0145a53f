import Verif.Spec.Der
import Verif.Spec.Time
import Verif.Spec.Utf8
/-
X.509 v1/v3 certificates of RFC 5280 with an ECDSA signature and an elliptic-curve key (RFC 5480), in DER.
-/
namespace ATLS.Spec.X509
open ATLS ATLS.Spec

/-- The signature algorithms of RFC 5758. -/
inductive SigAlg where
  | ecdsaWithSha256
  | ecdsaWithSha384
  deriving DecidableEq, Repr

/-- 1.2.840.10045.4.3.2 and 1.2.840.10045.4.3.3 -/
def SigAlg.oid : SigAlg → Bytes
  | .ecdsaWithSha256 => [0x2a, 0x86, 0x48, 0xce, 0x3d, 0x04, 0x03, 0x02]
  | .ecdsaWithSha384 => [0x2a, 0x86, 0x48, 0xce, 0x3d, 0x04, 0x03, 0x03]

/-- 1.2.840.10045.2.1 -/
def idEcPublicKey : Bytes := [0x2a, 0x86, 0x48, 0xce, 0x3d, 0x02, 0x01]

/-- 1.2.840.10045.3.1.7 -/
def prime256v1 : Bytes := [0x2a, 0x86, 0x48, 0xce, 0x3d, 0x03, 0x01, 0x07]

/-- A naming attribute: type and string value. `kind` is the tag of the string type: UTF8String, PrintableString or IA5String. -/
structure Attribute where
  oid : Bytes
  kind : Byte
  value : Bytes
  deriving DecidableEq, Repr

/-- A UTC date and time. -/
structure DateTime where
  year : Nat
  month : Nat
  day : Nat
  hour : Nat
  minute : Nat
  second : Nat
  deriving DecidableEq, Repr

/-- TBSCertificate; `version` is 0, 1 or 2 (absent for version 1), `key` the encoded point,
`curve` the identifier of its curve, `extensions` the contents of the [3] element. -/
structure Tbs where
  version : Option Nat
  serial : Nat
  sigAlg : SigAlg
  issuer : List Attribute
  notBefore : DateTime
  notAfter : DateTime
  subject : List Attribute
  key : Bytes
  extensions : Option Bytes
  curve : Bytes := prime256v1
  deriving DecidableEq, Repr

def objectIdentifier (o : Bytes) : Bytes := Der.tlv 0x06#8 o

/-- RelativeDistinguishedName with one AttributeTypeAndValue. -/
def Attribute.encode (a : Attribute) : Bytes := Der.tlv 0x31#8 (Der.sequence (objectIdentifier a.oid ++ Der.tlv a.kind a.value))

/-- Name: a SEQUENCE of single-valued RDNs. -/
def name (attrs : List Attribute) : Bytes := Der.sequence (attrs.map Attribute.encode).flatten

def DateTime.utc (t : DateTime) : Bytes := Time.utcTime t.year t.month t.day t.hour t.minute t.second

def time (t : DateTime) : Bytes := Der.tlv 0x17#8 t.utc

/-- AlgorithmIdentifier of ECDSA: no parameters. -/
def SigAlg.encode (a : SigAlg) : Bytes := Der.sequence (objectIdentifier a.oid)

/-- BIT STRING without unused bits. -/
def bitString (b : Bytes) : Bytes := Der.tlv 0x03#8 (0#8 :: b)

/-- SubjectPublicKeyInfo of an elliptic-curve key with a named curve. -/
def spki (curve key : Bytes) : Bytes := Der.sequence (Der.sequence (objectIdentifier idEcPublicKey ++ objectIdentifier curve) ++ bitString key)

def versionField : Option Nat → Bytes
  | none => []
  | some v => Der.tlv 0xa0#8 (Der.integer v)

def extensionsField : Option Bytes → Bytes
  | none => []
  | some e => Der.tlv 0xa3#8 e

/-- The contents of the TBSCertificate SEQUENCE. -/
def Tbs.body (t : Tbs) : Bytes :=
  versionField t.version ++ (Der.integer t.serial ++ (t.sigAlg.encode ++ (name t.issuer ++ (Der.sequence (time t.notBefore ++ time t.notAfter) ++
    (name t.subject ++ (spki t.curve t.key ++ extensionsField t.extensions))))))

/-- What the CA signs. -/
def Tbs.encode (t : Tbs) : Bytes := Der.sequence t.body

/-- Certificate ::= SEQUENCE { tbsCertificate, signatureAlgorithm, signatureValue } -/
def certificate (t : Tbs) (r s : Nat) : Bytes :=
  Der.sequence (t.encode ++ (t.sigAlg.encode ++ bitString (Der.ecdsaSig r s)))

/-- The value of an attribute type in a name: the last one, should there be several. -/
def attributeValue (attrs : List Attribute) (o : Bytes) : Option Bytes :=
  (attrs.reverse.find? fun a => a.oid == o).map (·.value)

/-- The attribute types of RFC 5280 the library knows, with the names it uses for them. -/
def attributeNames : List (Bytes × String) :=
  [([0x55, 0x04, 0x06], "countryName"), ([0x55, 0x04, 0x08], "stateOrProvinceName"), ([0x55, 0x04, 0x0a], "organizationName"),
    ([0x55, 0x04, 0x03], "commonName"), ([0x55, 0x04, 0x07], "localityName"), ([0x55, 0x04, 0x0b], "organizationalUnitName"),
    ([0x2a, 0x86, 0x48, 0x86, 0xf7, 0x0d, 0x01, 0x09, 0x01], "emailAddress")]

/-- An uncompressed point (SEC 1 2.3.3). -/
def point (x y : Nat) : Bytes := 4#8 :: (beBytes 32 x ++ beBytes 32 y)

/-- The three string types, with text; the attribute type is not one of the identifiers 0.0.* -/
structure Attribute.WellFormed (a : Attribute) : Prop where
  kind : a.kind = 0x0c#8 ∨ a.kind = 0x13#8 ∨ a.kind = 0x16#8
  text : Utf8.IsText a.value
  oid : a.oid.head? ≠ some 0#8

/-- Existing dates of the years for which RFC 5280 prescribes UTCTime. -/
def DateTime.WellFormed (t : DateTime) : Prop :=
  Time.InCalendar t.year t.month t.day t.hour t.minute t.second ∧ 1950 ≤ t.year ∧ t.year ≤ 2049

structure Tbs.WellFormed (t : Tbs) : Prop where
  version : ∀ v, t.version = some v → v ≤ 2
  issuer : ∀ a ∈ t.issuer, a.WellFormed
  subject : ∀ a ∈ t.subject, a.WellFormed
  notBefore : t.notBefore.WellFormed
  notAfter : t.notAfter.WellFormed
  curve : t.curve = prime256v1
  key : ∃ x y, x < 2 ^ 256 ∧ y < 2 ^ 256 ∧ t.key = point x y

/-- As `WellFormed`, with a key on any curve, in one of the forms of SEC 1 2.3.3 (uncompressed or compressed, of any length). -/
structure Tbs.AnyCurve (t : Tbs) : Prop where
  version : ∀ v, t.version = some v → v ≤ 2
  issuer : ∀ a ∈ t.issuer, a.WellFormed
  subject : ∀ a ∈ t.subject, a.WellFormed
  notBefore : t.notBefore.WellFormed
  notAfter : t.notAfter.WellFormed
  curve : t.curve.head? ≠ some 0#8
  key : ∃ k0 k, t.key = k0 :: k ∧ (k0 = 2#8 ∨ k0 = 3#8 ∨ k0 = 4#8)

end ATLS.Spec.X509
