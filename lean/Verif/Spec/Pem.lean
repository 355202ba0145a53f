import Verif.Basic

/-! What a PEM file is (RFC 7468 shape): a sequence of blocks, each preceded by optional explanatory lines. -/

namespace ATLS.Spec

/-- A PEM block: explanatory lines before it, the title, the base64 body cut into lines in any way, and the payload. -/
structure PemBlock where
  before : List (List Char)
  title : List Char
  lines : List (List Char)
  payload : Bytes

/-- The lines of the block as they stand in the file. -/
def PemBlock.renderLines (b : PemBlock) : List (List Char) :=
  b.before ++ ["-----BEGIN ".toList ++ b.title ++ "-----".toList] ++ b.lines
    ++ ["-----END ".toList ++ b.title ++ "-----".toList]

/-- Explanatory lines do not look like a BEGIN line; no line contains a newline character. -/
def PemBlock.WellFormed (b : PemBlock) : Prop :=
  (∀ l ∈ b.before, ("-----BEGIN".toList.isPrefixOf l) = false) ∧ (∀ l ∈ b.before, '\n' ∉ l) ∧ '\n' ∉ b.title

/-- The text of a file: every line followed by a newline. -/
def renderFile (bs : List PemBlock) (tail : List (List Char)) : List Char :=
  (bs.flatMap PemBlock.renderLines ++ tail).flatMap (fun l => l ++ ['\n'])

end ATLS.Spec
