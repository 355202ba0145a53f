import Verif.Spec.Channel
/-
A network that replaces, inserts, removes, repeats and reorders whole records.
-/
namespace ATLS.Spec.Tls13
open ATLS

/-- A record of one of the content types of RFC 8446 B.1, long enough to hold an authentication tag, that one read of 4096 bytes takes in. -/
def Readable (wire : Bytes) : Prop :=
  ∃ type body, type ∈ [0#8, 20#8, 21#8, 22#8, 23#8] ∧ IsRecord type body wire ∧ 16 ≤ body.length ∧ wire.length ≤ 4096

/-- The integrity of the ciphertexts: `records` are the peer's records, from sequence number `first` on. Whatever of `wires` is an encryption under the
key and one of the sequence numbers up to `last - 1` is the peer's record of that number. -/
def Unforged (aead : Seal) (key iv : Bytes) (records : List Bytes) (first last : Nat) (wires : List Bytes) : Prop :=
  ∀ (seq : Nat) (inner wire : Bytes), first ≤ seq → seq < last → wire ∈ wires → Encloses aead key iv seq inner wire → records[seq - first]? = some wire

end ATLS.Spec.Tls13
