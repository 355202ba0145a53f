import Verif.Spec.Peer
/-
What an RFC 8446 peer may send once the handshake is complete.
-/
namespace ATLS.Spec.Tls13
open ATLS ATLS.Spec

/-- Application data, a NewSessionTicket message (section 4.6.1), a KeyUpdate message (section 4.6.3), the alert close_notify (section 6.1). -/
inductive Sending where
  | data (content : Bytes)
  | ticket (body : Bytes)
  | keyUpdate (updateRequested : Bool)
  | closeNotify

/-- The content type of its record. -/
def Sending.type : Sending → Byte
  | .data _ => 23#8
  | .closeNotify => 21#8
  | _ => 22#8

/-- The content of its record. -/
def Sending.content : Sending → Bytes
  | .data content => content
  | .ticket body => handshakeMessage 4#8 body
  | .keyUpdate requested => handshakeMessage 24#8 [if requested then 1#8 else 0#8]
  | .closeNotify => [1#8, 0#8]

/-- The application data among it. -/
def Sending.dataOf : Sending → Option Bytes
  | .data content => some content
  | _ => none

/-- Section 7.2: application_traffic_secret_N+1. -/
def Suite.nextSecret (u : Suite) (secret : Bytes) : Bytes := expandLabel u.hash secret "traffic upd" [] u.hash.out

/-- `records` are the protected records for `sendings`, one each: the first under the key and IV of the traffic secret `secret` and the sequence number
`seq`; after a KeyUpdate message the sender uses the next secret, from sequence number 0. -/
def Sends (u : Suite) : (secret : Bytes) → (seq : Nat) → (sendings : List Sending) → (records : List Bytes) → Prop
  | _, _, [], records => records = []
  | secret, seq, x :: xs, records => ∃ w rest, records = w :: rest ∧
      Protected u.protect (writeKey u.hash secret u.keyLength) (writeIv u.hash secret 12) seq x.type x.content w ∧
      match x with
      | .keyUpdate _ => Sends u (u.nextSecret secret) 0 xs rest
      | _ => Sends u secret (seq + 1) xs rest

end ATLS.Spec.Tls13
