import Verif.Spec.Agreement
/-
What would have to happen for the records of one session to be accepted in another.
-/
namespace ATLS.Spec.Tls13
open ATLS ATLS.Spec

/-- The record `w` is a valid protected handshake record with sequence number `seq` under two different keys (or initial vectors, or AEADs). -/
def Ambiguous (aead aead' : Seal) (key key' iv iv' : Bytes) (seq : Nat) (w : Bytes) : Prop :=
  (aead ≠ aead' ∨ key ≠ key' ∨ iv ≠ iv') ∧ (∃ content, Carries aead key iv seq 22#8 content w) ∧ ∃ content, Carries aead' key' iv' seq 22#8 content w

/-- The hash function has a collision between an input of the first list and the input of the second list at the same place. -/
def Collision (h : Hash) (a b : List Bytes) : Prop := ∃ p ∈ a.zip b, p.1 ≠ p.2 ∧ h.H p.1 = h.H p.2

end ATLS.Spec.Tls13
