import Verif.Basic
/-
A Rust method taking `&mut self` and returning `Result<α, ε>`: the outcome and the state it leaves behind (also when it fails).
-/
namespace ATLS.Model
open ATLS

/-- The outcome of a call that mutates `σ`. -/
def Step (σ ε α : Type) : Type := σ → Res ε α × σ

namespace Step
variable {σ ε α β : Type}

/-- Sequencing with `?`: an error or a panic ends the method, the state is what it was at that point. -/
def bind (x : Step σ ε α) (f : α → Step σ ε β) : Step σ ε β := fun s =>
  match x s with
  | (.ok a, s') => f a s'
  | (.err e, s') => (.err e, s')
  | (.panic, s') => (.panic, s')

instance : Monad (Step σ ε) where
  pure a := fun s => (.ok a, s)
  bind := Step.bind

/-- A call that does not touch the state. -/
def lift (r : Res ε α) : Step σ ε α := fun s => (r, s)

/-- Read the state. -/
def get : Step σ ε σ := fun s => (.ok s, s)

/-- Assign to fields of the state. -/
def modify (f : σ → σ) : Step σ ε Unit := fun s => (.ok (), f s)

/-- `return Err(e)` -/
def throw (e : ε) : Step σ ε α := fun s => (.err e, s)

/-- `todo!()`, `panic!()` -/
def crash : Step σ ε α := fun s => (.panic, s)

end Step
end ATLS.Model
