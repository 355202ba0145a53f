import Verif.Spec.Handshake
/-
What two ends hash when they compute a Finished message, for stating that there is no collision.
-/
namespace ATLS.Spec.Tls13
open ATLS ATLS.Spec

/-- The inputs of the hash function in the Finished message of an end after the transcript `messages`: the transcript, and the inner and the outer input
of the HMAC (RFC 2104) over its hash. -/
def Session.finishedInputs (s : Session) (side : Side) (messages : Bytes) : List Bytes :=
  let k := hmacKey s.hash (finishedKey s.hash (s.secret side))
  let inner := k.map (· ^^^ 0x36#8) ++ s.hash.H messages
  [messages, inner, k.map (· ^^^ 0x5c#8) ++ s.hash.H inner]

/-- The inputs of the hash function in an HMAC (RFC 2104). -/
def macInputs (h : Hash) (key text : Bytes) : List Bytes :=
  let k := hmacKey h key
  let inner := k.map (· ^^^ 0x36#8) ++ text
  [inner, k.map (· ^^^ 0x5c#8) ++ h.H inner]

/-- The label of an end's handshake traffic secret. -/
def handshakeLabel : Side → String
  | .client => "c hs traffic"
  | .server => "s hs traffic"

/-- The inputs of the hash function on the way from the shared secret and the two hellos to the key of an end's Finished message (RFC 8446 section 7.1):
the hellos, and the HMACs that give the handshake secret, the handshake traffic secret and the finished key. -/
def Session.keyInputs (s : Session) (side : Side) : List Bytes :=
  s.hellos :: (macInputs s.hash (deriveSecret s.hash (earlySecret s.hash) "derived" (s.hash.H [])) s.ecdhe ++
    macInputs s.hash (handshakeSecret s.hash s.ecdhe)
      (hkdfLabel s.hash.out (handshakeLabel side) (s.hash.H s.hellos) ++ [1#8]) ++
    macInputs s.hash (s.secret side) (hkdfLabel s.hash.out "finished" [] ++ [1#8]))

/-- The hash function has no collision between an input of the first list and the input of the second list at the same place. -/
def NoCollision (h : Hash) (a b : List Bytes) : Prop := ∀ p ∈ a.zip b, h.H p.1 = h.H p.2 → p.1 = p.2

end ATLS.Spec.Tls13
