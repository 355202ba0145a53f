import Verif.Spec.Kdf
/-
RFC 8446 section 7: the key schedule (without PSK), traffic keys, Finished and per-record nonces.
-/
namespace ATLS.Spec.Tls13
open ATLS ATLS.Spec

/-- Section 7.1: the structure HkdfLabel: `uint16 length; opaque label<7..255> = "tls13 " + Label; opaque context<0..255>`. -/
def hkdfLabel (length : Nat) (label : String) (context : Bytes) : Bytes :=
  beBytes 2 length ++ (beBytes 1 ("tls13 " ++ label).length ++ ascii ("tls13 " ++ label)) ++ (beBytes 1 context.length ++ context)

/-- HKDF-Expand-Label(Secret, Label, Context, Length) -/
def expandLabel (h : Hash) (secret : Bytes) (label : String) (context : Bytes) (length : Nat) : Bytes :=
  hkdfExpand h secret (hkdfLabel length label context) length

/-- Derive-Secret(Secret, Label, Messages), given Transcript-Hash(Messages). -/
def deriveSecret (h : Hash) (secret : Bytes) (label : String) (transcriptHash : Bytes) : Bytes :=
  expandLabel h secret label transcriptHash h.out

/-- Early Secret = HKDF-Extract(0, 0) (no PSK). -/
def earlySecret (h : Hash) : Bytes := hkdfExtract h (zeros h.out) (zeros h.out)

/-- Handshake Secret = HKDF-Extract(Derive-Secret(Early Secret, "derived", ""), (EC)DHE). -/
def handshakeSecret (h : Hash) (ecdhe : Bytes) : Bytes :=
  hkdfExtract h (deriveSecret h (earlySecret h) "derived" (h.H [])) ecdhe

/-- Master Secret = HKDF-Extract(Derive-Secret(Handshake Secret, "derived", ""), 0). -/
def masterSecret (h : Hash) (ecdhe : Bytes) : Bytes :=
  hkdfExtract h (deriveSecret h (handshakeSecret h ecdhe) "derived" (h.H [])) (zeros h.out)

/-- The two ends. -/
inductive Side where
  | client
  | server
  deriving DecidableEq, Repr

/-- client/server_handshake_traffic_secret, from the hash of ClientHello...ServerHello. -/
def handshakeTrafficSecret (h : Hash) (ecdhe helloHash : Bytes) : Side → Bytes
  | .client => deriveSecret h (handshakeSecret h ecdhe) "c hs traffic" helloHash
  | .server => deriveSecret h (handshakeSecret h ecdhe) "s hs traffic" helloHash

/-- client/server_application_traffic_secret_0, from the hash of ClientHello...server Finished. -/
def applicationTrafficSecret (h : Hash) (ecdhe finishedHash : Bytes) : Side → Bytes
  | .client => deriveSecret h (masterSecret h ecdhe) "c ap traffic" finishedHash
  | .server => deriveSecret h (masterSecret h ecdhe) "s ap traffic" finishedHash

/-- Section 7.3: [sender]_write_key and [sender]_write_iv. -/
def writeKey (h : Hash) (secret : Bytes) (keyLength : Nat) : Bytes := expandLabel h secret "key" [] keyLength
def writeIv (h : Hash) (secret : Bytes) (ivLength : Nat) : Bytes := expandLabel h secret "iv" [] ivLength

/-- Section 4.4.4: finished_key and verify_data. -/
def finishedKey (h : Hash) (baseKey : Bytes) : Bytes := expandLabel h baseKey "finished" [] h.out
def verifyData (h : Hash) (baseKey transcriptHash : Bytes) : Bytes := hmac h (finishedKey h baseKey) transcriptHash

/-- Section 5.3: the 64-bit sequence number in network byte order, padded to the left with zeros to the length of the IV, XORed with it. -/
def nonce (iv : Bytes) (seq : Nat) : Bytes := xorBytes iv (zeros (iv.length - 8) ++ beBytes 8 seq)

end ATLS.Spec.Tls13
