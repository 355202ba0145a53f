import Verif.Proof.Step
/-
Properties of the state that every step of a method keeps, whatever the outcome.
-/
namespace ATLS.Model
open ATLS

/-- The method keeps `P`, also when it fails. -/
def Step.Pres {σ ε α : Type} (P : σ → Prop) (f : Step σ ε α) : Prop := ∀ s, P s → P (f s).2

namespace Step.Pres
variable {σ ε α β : Type} {P : σ → Prop}

theorem pure (a : α) : Step.Pres P (Pure.pure a : Step σ ε α) := fun _ h => h
theorem lift (r : Res ε α) : Step.Pres P (Step.lift r : Step σ ε α) := fun _ h => h
theorem get : Step.Pres P (Step.get : Step σ ε σ) := fun _ h => h
theorem throw (e : ε) : Step.Pres P (Step.throw e : Step σ ε α) := fun _ h => h
theorem crash : Step.Pres P (Step.crash : Step σ ε α) := fun _ h => h
theorem modify {g : σ → σ} (h : ∀ s, P s → P (g s)) : Step.Pres P (Step.modify g : Step σ ε Unit) := h

theorem bind {x : Step σ ε α} {f : α → Step σ ε β} (hx : Step.Pres P x) (hf : ∀ a, Step.Pres P (f a)) : Step.Pres P (x >>= f) := by
  intro s h
  have h1 := hx s h
  rw [Step.bind_eq]
  rcases hxs : x s with ⟨r, s'⟩
  rw [hxs] at h1
  cases r with
  | ok a => exact hf a s' h1
  | err e => exact h1
  | panic => exact h1

end Step.Pres

/-- Walks through the body of a method; what remains are the calls and assignments. -/
macro "pres" : tactic => `(tactic| repeat' (first
  | exact Step.Pres.pure _ | exact Step.Pres.lift _ | exact Step.Pres.get | exact Step.Pres.throw _ | exact Step.Pres.crash
  | assumption | with_reducible refine Step.Pres.bind ?_ (fun _ => ?_) | split | dsimp only))

end ATLS.Model
