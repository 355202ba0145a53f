import Verif.Spec.Handshake
/-
A network that may drop, repeat, reorder, cut, join and invent bytes, but cannot forge AEAD encryptions.
-/
namespace ATLS.Spec.Tls13
open ATLS

/-- `sent` is all that the peer ever sent under `key` and `iv`: the content types and contents of its records, by sequence number. The byte stream
contains no forgery as far as the sequence numbers from `first` to `last - 1` are concerned: every part of it that is a record carrying something
under one of these numbers carries what the peer sent under that number. -/
def NoForgery (aead : Seal) (key iv : Bytes) (sent : List (Byte × Bytes)) (first last : Nat) (stream : Bytes) : Prop :=
  ∀ (seq : Nat) (type : Byte) (content wire : Bytes), first ≤ seq → seq < last → type ≠ 0#8 → wire <:+: stream →
    Carries aead key iv seq type content wire → sent[seq]? = some (type, content)

/-- `wire` is a record whose body is the AEAD encryption of `inner`, under the key and the nonce of sequence number `seq` and with the record's
header as additional data. -/
def Encloses (aead : Seal) (key iv : Bytes) (seq : Nat) (inner wire : Bytes) : Prop :=
  ∃ header ct tag : Bytes, header.length = 5 ∧ tag.length = 16 ∧ wire = header ++ ct ++ tag ∧ (ct ++ tag).length < 2 ^ 16 ∧
    header.drop 3 = beBytes 2 (ct ++ tag).length ∧ aead key (nonce iv seq) inner header = some (ct, tag)

/-- `NoForgery` for whatever is encrypted: every part of the byte stream that is an encryption under one of the sequence numbers is one of the peer,
who encrypted the content and the type it sent under that number, and zeros. -/
def Authentic (aead : Seal) (key iv : Bytes) (sent : List (Byte × Bytes)) (first last : Nat) (stream : Bytes) : Prop :=
  ∀ (seq : Nat) (inner wire : Bytes), first ≤ seq → seq < last → wire <:+: stream → Encloses aead key iv seq inner wire →
    ∃ type content padding, type ≠ 0#8 ∧ inner = content ++ [type] ++ zeros padding ∧ sent[seq]? = some (type, content)

end ATLS.Spec.Tls13
