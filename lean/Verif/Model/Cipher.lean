import Verif.Model.Gcm
import Verif.Model.ChaCha
import Verif.Model.Kdf
/-
Model of `anothertls/src/crypto/ciphersuite.rs`.
-/
namespace ATLS.Model
open ATLS

/-- crypto/ciphersuite.rs:35-40 `CipherSuite`. -/
inductive CipherSuite where
  | aes256GcmSha384
  | chacha20Poly1305Sha256
  | aes128GcmSha256
  | emptyRenegotiationInfoScsv
  deriving DecidableEq, Repr

/-- crypto/ciphersuite.rs:43-51 `CipherSuite::new`. -/
def CipherSuite.new (x : Nat) : Res TlsError CipherSuite :=
  if x = 0x1302 then .ok .aes256GcmSha384
  else if x = 0x1303 then .ok .chacha20Poly1305Sha256
  else if x = 0x1301 then .ok .aes128GcmSha256
  else if x = 0x00ff then .ok .emptyRenegotiationInfoScsv
  else .err .insufficientSecurity

/-- crypto/ciphersuite.rs:52-59 `as_u16`. -/
def CipherSuite.asU16 : CipherSuite → Nat
  | .aes256GcmSha384 => 0x1302
  | .chacha20Poly1305Sha256 => 0x1303
  | .aes128GcmSha256 => 0x1301
  | .emptyRenegotiationInfoScsv => 0x00ff

/-- crypto/ciphersuite.rs:60-68 `get_tshash`: the type of the fresh transcript hash. -/
def CipherSuite.getTshash : CipherSuite → Res TlsError HashType
  | .aes256GcmSha384 => .ok .sha384
  | .aes128GcmSha256 => .ok .sha256
  | .chacha20Poly1305Sha256 => .ok .sha256
  | .emptyRenegotiationInfoScsv => .err .insufficientSecurity

/-- crypto/ciphersuite.rs:69-77 `get_key_and_iv_len`. -/
def CipherSuite.getKeyAndIvLen : CipherSuite → Nat × Nat
  | .aes256GcmSha384 => (32, 12)
  | .chacha20Poly1305Sha256 => (32, 12)
  | .aes128GcmSha256 => (16, 12)
  | .emptyRenegotiationInfoScsv => (32, 12)

/-- crypto/ciphersuite.rs:12-31: the two implementations of the trait `Cipher` (`dyn Cipher`). -/
inductive Cipher where
  | gcm (cs : CipherSuite)
  | poly1305
  deriving DecidableEq, Repr

/-- crypto/ciphersuite.rs:78-87 `get_cipher`. -/
def CipherSuite.getCipher : CipherSuite → Res TlsError Cipher
  | .aes256GcmSha384 => .ok (.gcm .aes256GcmSha384)
  | .aes128GcmSha256 => .ok (.gcm .aes128GcmSha256)
  | .chacha20Poly1305Sha256 => .ok .poly1305
  | .emptyRenegotiationInfoScsv => .err .insufficientSecurity

/-- crypto/ciphersuite.rs:30 `get_cipher_suite` (crypto/aes/gcm.rs:159-161, crypto/chacha20/poly1305.rs:101-103). -/
def Cipher.getCipherSuite : Cipher → CipherSuite
  | .gcm cs => cs
  | .poly1305 => .chacha20Poly1305Sha256

/-- crypto/ciphersuite.rs:14-20: dynamic dispatch of `encrypt`. -/
def Cipher.encrypt (c : Cipher) (key iv plaintext aad : Bytes) : Res TlsError (Bytes × Bytes) :=
  match c with
  | .gcm _ => Gcm.encrypt key iv plaintext aad
  | .poly1305 => Poly1305.encrypt key iv plaintext aad

/-- crypto/ciphersuite.rs:22-29: dynamic dispatch of `decrypt`. -/
def Cipher.decrypt (c : Cipher) (key iv ciphertext aad authTag : Bytes) : Res TlsError Bytes :=
  match c with
  | .gcm _ => Gcm.decrypt key iv ciphertext aad authTag
  | .poly1305 => Poly1305.decrypt key iv ciphertext aad authTag

end ATLS.Model
