import Verif.Spec.Handshake
/-
RFC 8446 section 5.2: how long a protected record may be.
-/
namespace ATLS.Spec.Tls13
open ATLS

/-- The part of the record behind its header of five bytes is longer than 2^14 + 256 bytes. "An endpoint that receives a record that exceeds this
length MUST terminate the connection with a record_overflow alert." -/
def TooLong (w : Bytes) : Prop := 5 + (2 ^ 14 + 256) < w.length

end ATLS.Spec.Tls13
