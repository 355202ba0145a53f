import Verif.Model.Time
import Verif.Model.Utf8
/-
Model of the certificate parser of `anothertls/src/utils/x509.rs`.

A Rust `String` is modelled by its bytes (see Model/Utf8), except for the names of object identifiers, which are literals.
-/
namespace ATLS.Model
open ATLS

/-- utils/x509.rs:146-152 `Algorithms`. -/
inductive Algorithms where
  | ecdsaWithSha256
  | ecdsaWithSha384
  | ecPublicKey
  | sha256WithRSAEncryption
  deriving DecidableEq, Repr

/-- utils/x509.rs:154-166 `Algorithms::new`. -/
def Algorithms.new (s : String) : Res ParseError Algorithms :=
  if s = "ecdsaWithSHA256" then .ok .ecdsaWithSha256
  else if s = "ecdsaWithSHA384" then .ok .ecdsaWithSha384
  else if s = "ecPublicKey" then .ok .ecPublicKey
  else if s = "sha256WithRSAEncryption" then .ok .sha256WithRSAEncryption
  else .err .algorithms

/-- utils/x509.rs:167-179 `AlgorithmIdentifier`. -/
structure AlgorithmIdentifier where
  algorithm : Algorithms
  parameters : Option String
  deriving DecidableEq, Repr

/-- utils/x509.rs:206-228 `parse_object_identifier` (it never fails). -/
def parseObjectIdentifier (id : Bytes) : String :=
  match (toU128BeFill id).toNat with
  | 0x550406 => "countryName"
  | 0x550408 => "stateOrProvinceName"
  | 0x55040a => "organizationName"
  | 0x550403 => "commonName"
  | 0x2a8648ce3d040302 => "ecdsaWithSHA256"
  | 0x2a8648ce3d040303 => "ecdsaWithSHA384"
  | 0x2a8648ce3d030107 => "prime256v1"
  | 0x2a8648ce3d0201 => "ecPublicKey"
  | 0x2a864886f70d010901 => "emailAddress"
  | 0x2a864886f70d01010b => "sha256WithRSAEncryption"
  | 0x2a864886f70d010101 => "sha256WithRSAEncryption"
  | 0x550407 => "localityName"
  | 0x55040B => "organizationalUnitName"
  | _ => "UNKOWN"

/-- utils/x509.rs:240 `Name`: the `HashMap` as an association list (newest entry first, keys may repeat, lookups take the first), and the pending
object identifier. -/
structure Name where
  map : List (String × Bytes)
  pending : Option String
  deriving DecidableEq, Repr

namespace Name

/-- utils/x509.rs:243-245 `Name::new`. -/
def new : Name := ⟨[], none⟩

/-- utils/x509.rs:246-252 `Name::get`. -/
def get (n : Name) (key : String) : Res ParseError Bytes :=
  match n.map.lookup key with
  | some v => .ok v
  | none => .err .nameGet

/-- utils/x509.rs:253-256 `add_object_identifier`. -/
def addObjectIdentifier (n : Name) (id : Bytes) : Name := { n with pending := some (parseObjectIdentifier id) }

/-- utils/x509.rs:257-264 `add_value`; inserting replaces the value of an existing key. -/
def addValue (n : Name) (value : Bytes) : Res ParseError Name :=
  match n.pending with
  | some name => .ok ⟨(name, value) :: n.map, none⟩
  | none => .err .nameAddValue

end Name

/-- utils/x509.rs:443-448 `Version`. -/
inductive Version where
  | v1 | v2 | v3
  deriving DecidableEq, Repr

/-- utils/x509.rs:450-460 `Version::parse`. -/
def Version.parse (data : Bytes) : Res ParseError Version :=
  match data with
  | [b] => if b = 0#8 then .ok .v1 else if b = 1#8 then .ok .v2 else if b = 2#8 then .ok .v3 else .err .version
  | _ => .err .version

/-- utils/x509.rs:402-407, 297-309 and 185-188: `X509Builder` with the builders inside it. The fields `extension` and `raw_data`, which are never
set, are left out. -/
structure X509Builder where
  version : Option Version
  serialNumber : Option Nat
  signatureAlg : Option AlgorithmIdentifier
  issuer : Name
  validity : Validity
  subject : Name
  spkAlgorithm : Option AlgorithmIdentifier
  subjectPublicKey : Option Bytes
  tbsCertificateSize : Nat
  signatureAlgorithm : Option Algorithms
  signature0 : Option Nat
  signature1 : Option Nat
  deriving DecidableEq, Repr

/-- utils/x509.rs:409-416 `X509Builder::new`. -/
def X509Builder.new : X509Builder :=
  ⟨none, none, none, Name.new, Validity.new, Name.new, none, none, 0, none, none, none⟩

/-- utils/x509.rs:349-354, 284-296 and 180-183: `X509` with the structures inside it. -/
structure X509 where
  version : Option Version
  serialNumber : Nat
  signatureAlg : AlgorithmIdentifier
  issuer : Name
  validity : Validity
  subject : Name
  spkAlgorithm : AlgorithmIdentifier
  subjectPublicKey : Bytes
  tbsCertificateSize : Nat
  signatureAlgorithm : Algorithms
  signature : Option Signature
  deriving DecidableEq, Repr

/-- utils/x509.rs:417-434 `X509Builder::build`, with `TBSCertificateBuilder::build` (325-340) and `SubjectPublicKeyInfoBuilder::build` (196-204).
A missing `subject_public_key` or `signature_algorithm` is an `unwrap` panic. -/
def X509Builder.build (b : X509Builder) : Res ParseError X509 :=
  let signature := match b.signature0, b.signature1 with
    | some r, some s => some ⟨s, r⟩
    | _, _ => none
  match b.serialNumber, b.signatureAlg with
  | some serial, some alg => do
    match b.spkAlgorithm with
    | none => .err .subjectPublicKeyInfo
    | some spkAlg => do
      let key ← Res.unwrap b.subjectPublicKey
      let sigAlg ← Res.unwrap b.signatureAlgorithm
      .ok ⟨b.version, serial, alg, b.issuer, b.validity, b.subject, spkAlg, key, b.tbsCertificateSize, sigAlg, signature⟩
  | _, _ => .err .tbsBuilder

/-- utils/x509.rs:436-441 `ParsingState`. -/
inductive ParsingState where
  | init
  | inBitString
  | inSet
  deriving DecidableEq, Repr

namespace X509Builder

/-- utils/x509.rs:473-478: the size of the to-be-signed part is taken from the second SEQUENCE. -/
def noteSequence (b : X509Builder) (size : Nat) : X509Builder :=
  if b.tbsCertificateSize = 0 then { b with tbsCertificateSize := 1 }
  else if b.tbsCertificateSize = 1 then { b with tbsCertificateSize := size + 4 }
  else b

/-- utils/x509.rs:503-513: an INTEGER is the serial number, then r, then s. -/
def addInteger (b : X509Builder) (int : Nat) : X509Builder :=
  if b.serialNumber = none then { b with serialNumber := some int }
  else if b.signature0 = none then { b with signature0 := some int }
  else { b with signature1 := some int }

/-- utils/x509.rs:515-522: an OBJECT IDENTIFIER inside a SET. -/
def addNameOid (b : X509Builder) (body : Bytes) : X509Builder :=
  if b.validity.notAfter = none then { b with issuer := b.issuer.addObjectIdentifier body }
  else { b with subject := b.subject.addObjectIdentifier body }

/-- utils/x509.rs:523-554: an OBJECT IDENTIFIER elsewhere. -/
def addOid (b : X509Builder) (body : Bytes) : Res ParseError X509Builder :=
  let oji := parseObjectIdentifier body
  match b.signatureAlg, b.spkAlgorithm with
  | none, _ => do
    let a ← Algorithms.new oji
    .ok { b with signatureAlg := some ⟨a, none⟩ }
  | some _, none => do
    let a ← Algorithms.new oji
    .ok { b with spkAlgorithm := some ⟨a, none⟩ }
  | some _, some alg =>
    if alg.parameters = none then .ok { b with spkAlgorithm := some { alg with parameters := some oji } }
    else if b.signatureAlgorithm = none then do
      let a ← Algorithms.new oji
      .ok { b with signatureAlgorithm := some a }
    else .ok b

/-- utils/x509.rs:558-569: a string. -/
def addString (b : X509Builder) (body : Bytes) : Res ParseError X509Builder :=
  if utf8Valid body then
    if b.validity.notAfter = none then do
      let n ← b.issuer.addValue body
      .ok { b with issuer := n }
    else do
      let n ← b.subject.addValue body
      .ok { b with subject := n }
  else .err .utf8String

/-- utils/x509.rs:574-589: a UTCTime. -/
def addTime (b : X509Builder) (body : Bytes) : Res ParseError X509Builder :=
  if utf8Valid body then do
    let t ← (UtcTime.fromUtcTimestamp body).mapErr fun _ => ParseError.timeStamp
    if b.validity.notBefore = none then .ok { b with validity := { b.validity with notBefore := some t } }
    else .ok { b with validity := { b.validity with notAfter := some t } }
  else .err .utf8StringTimestamp

/-- utils/x509.rs:597-613: a BIT STRING that is not taken for a nested structure. -/
def addBits (b : X509Builder) (unused : Byte) (body : Bytes) : Res ParseError X509Builder :=
  if unused ≠ 0#8 then .panic
  else if b.subjectPublicKey = none then do
    let key ← sliceFrom body 1
    .ok { b with subjectPublicKey := some key }
  else .ok b

end X509Builder

mutual
/-- utils/x509.rs:462-626 `parse`. `consumed: &mut usize` is an argument and part of the result; on an error the builder is dropped by the caller.
The fuel bounds the recursion; that it is enough is `C53_terminates`. -/
def parse : Nat → X509Builder → ParsingState → Bytes → Nat → Res ParseError (X509Builder × Nat)
  | 0, _, _, _, _ => .panic
  | fuel + 1, b, state, data, consumed => do
    let (size, der, consumed) ← derParse consumed data
    let body ← slice data consumed (consumed + size)
    match der with
    | .constructed .sequence => parseWhile fuel (b.noteSequence size) state data consumed (size + consumed)
    | .constructed (.contextSpecific tag) =>
      if tag = 0 then do
        let v ← sliceFrom body 2
        let version ← Version.parse v
        .ok ({ b with version := some version }, consumed + size)
      else .ok (b, consumed + size)
    | .constructed .set => parse fuel b .inSet data consumed
    | .constructed _ => .panic
    | .primitive .integer => .ok (b.addInteger (toIbigBe body), consumed + size)
    | .primitive .objectIdentifier =>
      match state with
      | .inSet => .ok (b.addNameOid body, consumed + size)
      | .init => do
        let b ← b.addOid body
        .ok (b, consumed + size)
      | .inBitString => .panic
    | .primitive .printableString => do
      let b ← b.addString body
      .ok (b, consumed + size)
    | .primitive .utf8String => do
      let b ← b.addString body
      .ok (b, consumed + size)
    | .primitive .octetString => .panic
    | .primitive .utcTime => do
      let b ← b.addTime body
      .ok (b, consumed + size)
    | .primitive .bitString => do
      let next ← idx data (consumed + 1)
      if next = 0x30#8 then parseWhile fuel b .inBitString data (consumed + 1) (size + (consumed + 1) - 1)
      else do
        let unused ← idx data consumed
        let b ← b.addBits unused body
        .ok (b, consumed + size)
    | .primitive .null => .panic
    | .primitive _ => .err .notYetImplemented

/-- utils/x509.rs:479-482 and 592-596: `while size_should > *consumed { parse(..)?; }`. -/
def parseWhile : Nat → X509Builder → ParsingState → Bytes → Nat → Nat → Res ParseError (X509Builder × Nat)
  | 0, _, _, _, _, _ => .panic
  | fuel + 1, b, state, data, consumed, sizeShould =>
    if sizeShould > consumed then do
      let (b, consumed) ← parse fuel b state data consumed
      parseWhile fuel b state data consumed sizeShould
    else .ok (b, consumed)
end

namespace X509

/-- utils/x509.rs:356-362 `X509::from_raw`. -/
def fromRaw (data : Bytes) : Res ParseError X509 := do
  let (b, _) ← parse (data.length + 1) X509Builder.new .init data 0
  b.build

/-- utils/x509.rs:363-400 `get_public_key`; `None` is `err ()`, compressed points are a `todo!()` panic. -/
def getPublicKey (x : X509) : Res Unit PublicKey := do
  if x.spkAlgorithm.algorithm ≠ .ecPublicKey then .err ()
  else
    let params ← Res.okOr () x.spkAlgorithm.parameters
    if params = "prime256v1" then do
      let b ← idx x.subjectPublicKey 0
      if b ≠ 4#8 then .panic
      else
        let px ← slice x.subjectPublicKey 1 33
        let py ← slice x.subjectPublicKey 33 65
        .ok ⟨⟨toIbigBe px, toIbigBe py⟩, Curve.secp256r1⟩
    else .err ()

end X509
end ATLS.Model
