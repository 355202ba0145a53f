import Verif.Model.X509
import Verif.Model.Kdf
import Verif.Model.Extensions
/-
Model of `anothertls/src/net/handshake/certificate.rs` (`from_pem` and `from_pem_x509` are in `Files.lean`).
-/
namespace ATLS.Model
open ATLS

/-- net/handshake/certificate.rs:16-19 `Certificate`. -/
structure Certificate where
  raw : Bytes
  x509 : Option X509
  deriving DecidableEq

namespace Certificate

/-- net/handshake/certificate.rs:22-33 `from_raw_x509`. -/
def fromRawX509 (raw : Bytes) : Res TlsError Certificate := do
  let x ← (X509.fromRaw raw).mapErr fun _ => TlsError.decodeError
  .ok ⟨raw, some x⟩

/-- net/handshake/certificate.rs:52-112 `from_hello` at the Unix time `now`. The loop ends after the first certificate in any case: either the
list is used up or the `break` is reached. (When `certs_len` is positive the loop runs at least once.) -/
def fromHello (now : Nat) (buf : Bytes) : Res TlsError (List Certificate) := do
  let ctxLen ← idx buf 0
  let consumed := 1 + ctxLen.toNat
  let l ← slice buf consumed (consumed + 3)
  let certsLen := (toU128BeFill l).toNat
  let consumed := consumed + 3
  if certsLen = 0 then .err .certificateRequired
  else
    let l ← slice buf consumed (consumed + 3)
    let certLen := (toU128BeFill l).toNat
    let consumed := consumed + 3
    let raw ← slice buf consumed (consumed + certLen)
    let cert ← fromRawX509 raw
    let consumed := consumed + certLen
    let _ ← slice buf consumed (consumed + 2)
    let x ← Res.unwrap cert.x509
    let valid ← x.validity.isValid now
    if !valid then .err .certificateExpired else .ok [cert]

/-- net/handshake/certificate.rs:114-122 `get_certificate_request`. -/
def getCertificateRequest (random : Bytes) : Res TlsError Bytes := do
  let e ← ServerExtension.serverAsBytes (.signatureAlgorithms [.ecdsaSecp256r1Sha256])
  .ok ([BitVec.ofNat 8 random.length] ++ random ++ extensionsAsBytes [e])

/-- net/handshake/certificate.rs:124-141 `get_certificate_for_handshake`. -/
def getCertificateForHandshake (c : Certificate) (certificatesRaw : Bytes) : Bytes :=
  let len := c.raw.length
  let lens := len + 5
  certificatesRaw ++ [BitVec.ofNat 8 (lens >>> 16), BitVec.ofNat 8 (lens >>> 8), BitVec.ofNat 8 lens,
    BitVec.ofNat 8 (len >>> 16), BitVec.ofNat 8 (len >>> 8), BitVec.ofNat 8 len] ++ c.raw ++ [0x00#8, 0x00#8]

/-- net/handshake/certificate.rs:151-157 and 210-216: the signed content. -/
def verifyContent (tshash : TsHash) (label : Bytes) : Bytes :=
  List.replicate 64 0x20#8 ++ ascii "TLS 1.3, " ++ label ++ ascii " CertificateVerify" ++ [0x00#8] ++ tshash.finalize

/-- net/handshake/certificate.rs:143-171 `get_certificate_verify_for_handshake`; `nonces` are the values of the random number generator. When they
are used up, the code would still be signing; this is modelled as a panic. -/
def getCertificateVerifyForHandshake (nonces : List Int) (privkey : PrivateKey) (tshash : TsHash) (label : Bytes) : Res TlsError Bytes := do
  let hash := sha256 (verifyContent tshash label)
  let signature ← (Ecdsa.sign nonces privkey hash).mapErr fun _ => TlsError.internalError
  let signature ← Res.unwrap signature
  let der ← signature.toDer
  .ok ([0x04#8, 0x03#8, BitVec.ofNat 8 (der.length >>> 8), BitVec.ofNat 8 der.length] ++ der)

/-- net/handshake/certificate.rs, call of crypto/ellipticcurve/ecdsa.rs:69: The boolean result of a call that cannot fail but may panic. -/
def verifyResult (r : Res Unit Bool) : Res TlsError Bool :=
  match r with
  | .ok b => .ok b
  | .err _ => .panic
  | .panic => .panic

/-- net/handshake/certificate.rs:173-200 `has_signed`. -/
def hasSigned (ca other : Certificate) : Res TlsError Unit :=
  match ca.x509, other.x509 with
  | some caX, some otherX => do
    let key ← match caX.getPublicKey with
      | .ok k => .ok k
      | .err _ => .panic
      | .panic => .panic
    match otherX.signature with
    | none => .err .decryptError
    | some sig => do
      let context ← slice other.raw 4 (4 + otherX.tbsCertificateSize)
      let ok ← verifyResult (Ecdsa.verify key sig (sha256 context))
      if ok then .ok () else .err .decryptError
  | _, _ => .err .internalError

/-- net/handshake/certificate.rs:202-224 `is_certificate_valid`. -/
def isCertificateValid (c : Certificate) (signature : Signature) (tshash : TsHash) (label : Bytes) : Res TlsError Bool := do
  let x ← Res.unwrap c.x509
  match x.getPublicKey with
  | .ok key => verifyResult (Ecdsa.verify key signature (sha256 (verifyContent tshash label)))
  | .err _ => .ok false
  | .panic => .panic

end Certificate
end ATLS.Model
