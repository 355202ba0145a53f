import Verif.Spec.Handshake
/-
Application data on the wire (RFC 8446 section 5.2).
-/
namespace ATLS.Spec.Tls13
open ATLS

/-- `records` are the protected records for the application data `payloads`, one each, with consecutive sequence numbers from `seq`. -/
def AppData (aead : Seal) (key iv : Bytes) : Nat → List Bytes → List Bytes → Prop
  | _, [], records => records = []
  | seq, m :: ms, records => ∃ w rest, records = w :: rest ∧ Protected aead key iv seq 23#8 m w ∧ AppData aead key iv (seq + 1) ms rest

/-- The same without padding. -/
def AppRecords (aead : Seal) (key iv : Bytes) : Nat → List Bytes → List Bytes → Prop
  | _, [], records => records = []
  | seq, m :: ms, records => ∃ ct tag rest, aead key (nonce iv seq) (m ++ [23#8]) (protectedHeader (m.length + 1)) = some (ct, tag) ∧
      records = (protectedHeader (m.length + 1) ++ ct ++ tag) :: rest ∧ AppRecords aead key iv (seq + 1) ms rest

end ATLS.Spec.Tls13
