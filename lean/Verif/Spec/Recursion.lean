import Mathlib.Logic.Function.Iterate
/-
When a recursion ends.
-/
namespace ATLS.Spec

/-- The recursive function `f x = body f x` ends on `x` with `v` after at most `n` nested calls: unrolled `n` times or more it gives `v`, whatever is
put in place of the further calls. (So no further call is made. A recursion that does not end has no such `n` and `v`, as soon as there are two
different values.) -/
def EndsWithin {α β : Type} (body : (α → β) → α → β) (x : α) (v : β) (n : Nat) : Prop :=
  ∀ (out : α → β) (m : Nat), n ≤ m → (body^[m]) out x = v

/-- What "does not end" means for the definition: `f x = f x` never ends, `f x = f (x - 1)` with `f 0 = 7` does. -/
example : ¬ ∃ v n, EndsWithin (fun (f : Nat → Nat) x => f x) 5 v n := by
  rintro ⟨v, n, h⟩
  have hi : ∀ (out : Nat → Nat) m, ((fun (f : Nat → Nat) x => f x)^[m]) out = out := by
    intro out m
    induction m with
    | zero => rfl
    | succ m ih => rw [Function.iterate_succ_apply', ih]
  have h0 := h (fun _ => 0) n (Nat.le_refl _)
  have h1 := h (fun _ => 1) n (Nat.le_refl _)
  rw [hi] at h0 h1
  omega

example : EndsWithin (fun (f : Nat → Nat) x => if x = 0 then 7 else f (x - 1)) 1 7 2 := by
  intro out m hm
  obtain ⟨k, rfl⟩ : ∃ k, m = k + 2 := ⟨m - 2, by omega⟩
  rw [Function.iterate_succ_apply', Function.iterate_succ_apply']
  simp

end ATLS.Spec
