import Verif.Basic
/-
Concurrent writers of one file.
-/
namespace ATLS.Spec
open ATLS

/-- `out` is an order in which the writes of the writers may happen: each writer's in its own order, those of different writers in any. -/
inductive Interleaved : List (List Bytes) → List Bytes → Prop
  | done {writers : List (List Bytes)} : (∀ w ∈ writers, w = []) → Interleaved writers []
  | step {a b : List (List Bytes)} {w : Bytes} {ws out : List Bytes} : Interleaved (a ++ ws :: b) out → Interleaved (a ++ (w :: ws) :: b) (w :: out)

end ATLS.Spec
