import Verif.Spec.KeySchedule
import Verif.Spec.Gcm
import Verif.Spec.ChaCha
import Verif.Spec.Aes
/-
RFC 8446 section 5.2: protected records, and the AEAD algorithms of the TLS 1.3 suites (RFC 5116/SP 800-38D, RFC 8439).
-/
namespace ATLS.Spec.Tls13
open ATLS ATLS.Spec

/-- AEAD algorithms. -/
inductive Aead where
  | aesGcm
  | chacha20Poly1305
  deriving DecidableEq, Repr

/-- AEAD-Encrypt: ciphertext and tag. -/
def Aead.encrypt : Aead → (key nonce plaintext aad : Bytes) → Bytes × Bytes
  | .aesGcm, key, nonce, plaintext, aad => Gcm.encrypt (Aes.aes key) nonce plaintext aad
  | .chacha20Poly1305, key, nonce, plaintext, aad => ChaCha.aeadEncrypt key nonce aad plaintext

/-- TLSCiphertext header: opaque_type 23, legacy_record_version 0x0303, length (16 more than the TLSInnerPlaintext). -/
def protectedHeader (innerLength : Nat) : Bytes := [23#8, 3#8, 3#8] ++ beBytes 2 (innerLength + 16)

/-- The protected record carrying `content` of type `type` with `padding` zero bytes, under `key` and `iv` with sequence number `seq`. -/
def protectedRecord (a : Aead) (key iv : Bytes) (seq : Nat) (type : Byte) (content : Bytes) (padding : Nat) : Bytes :=
  let inner := content ++ [type] ++ zeros padding
  let header := protectedHeader inner.length
  let (ct, tag) := a.encrypt key (nonce iv seq) inner header
  header ++ ct ++ tag

end ATLS.Spec.Tls13
