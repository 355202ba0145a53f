import Verif.Model.Step
/-
Reasoning about `Step`.
-/
namespace ATLS.Model.Step
open ATLS
variable {σ ε α β γ : Type}

theorem pure_eq (a : α) (s : σ) : (pure a : Step σ ε α) s = (.ok a, s) := rfl

theorem bind_eq (x : Step σ ε α) (f : α → Step σ ε β) (s : σ) : (x >>= f) s =
    match x s with
    | (.ok a, s') => f a s'
    | (.err e, s') => (.err e, s')
    | (.panic, s') => (.panic, s') := rfl

theorem bind_of_ok {x : Step σ ε α} {f : α → Step σ ε β} {s s' : σ} {a : α} (h : x s = (.ok a, s')) : (x >>= f) s = f a s' := by
  rw [bind_eq, h]

theorem bind_of_err {x : Step σ ε α} {f : α → Step σ ε β} {s s' : σ} {e : ε} (h : x s = (.err e, s')) : (x >>= f) s = (.err e, s') := by
  rw [bind_eq, h]

theorem bind_of_panic {x : Step σ ε α} {f : α → Step σ ε β} {s s' : σ} (h : x s = (.panic, s')) : (x >>= f) s = (.panic, s') := by
  rw [bind_eq, h]

theorem bind_ok {x : Step σ ε α} {f : α → Step σ ε β} {s s'' : σ} {b : β} :
    (x >>= f) s = (.ok b, s'') ↔ ∃ a s', x s = (.ok a, s') ∧ f a s' = (.ok b, s'') := by
  rw [bind_eq]
  constructor
  · intro h
    rcases hx : x s with ⟨r, s'⟩
    rw [hx] at h
    cases r with
    | ok a => exact ⟨a, s', rfl, h⟩
    | err e => cases h
    | panic => cases h
  · rintro ⟨a, s', h1, h2⟩
    rw [h1]; exact h2

theorem lift_ok {r : Res ε α} {s s' : σ} {a : α} : (lift r : Step σ ε α) s = (.ok a, s') ↔ r = .ok a ∧ s' = s := by
  unfold lift
  constructor
  · intro h; cases h; exact ⟨rfl, rfl⟩
  · rintro ⟨rfl, rfl⟩; rfl

theorem get_ok {s s' t : σ} : (get : Step σ ε σ) s = (.ok t, s') ↔ t = s ∧ s' = s := by
  unfold get
  constructor
  · intro h; cases h; exact ⟨rfl, rfl⟩
  · rintro ⟨rfl, rfl⟩; rfl

theorem modify_ok {f : σ → σ} {s s' : σ} {u : Unit} : (modify f : Step σ ε Unit) s = (.ok u, s') ↔ s' = f s := by
  unfold modify
  constructor
  · intro h; cases h; rfl
  · rintro rfl; rfl

theorem pure_ok {a b : α} {s s' : σ} : (pure a : Step σ ε α) s = (.ok b, s') ↔ b = a ∧ s' = s := by
  rw [pure_eq]
  constructor
  · intro h; cases h; exact ⟨rfl, rfl⟩
  · rintro ⟨rfl, rfl⟩; rfl

theorem throw_ok {e : ε} {s s' : σ} {a : α} : ¬ (throw e : Step σ ε α) s = (.ok a, s') := by
  intro h; cases h

theorem crash_ok {s s' : σ} {a : α} : ¬ (crash : Step σ ε α) s = (.ok a, s') := by
  intro h; cases h

theorem lift_eq (r : Res ε α) (s : σ) : (lift r : Step σ ε α) s = (r, s) := rfl

theorem bind_lift_ok {r : Res ε α} {a : α} (h : r = .ok a) (f : α → Step σ ε β) (s : σ) : ((lift r : Step σ ε α) >>= f) s = f a s := by
  subst h; rfl

theorem bind_get (f : σ → Step σ ε β) (s : σ) : ((get : Step σ ε σ) >>= f) s = f s s := rfl

theorem bind_modify (g : σ → σ) (f : Unit → Step σ ε β) (s : σ) : ((modify g : Step σ ε Unit) >>= f) s = f () (g s) := rfl

theorem bind_pure (a : α) (f : α → Step σ ε β) (s : σ) : ((pure a : Step σ ε α) >>= f) s = f a s := rfl

theorem lift_bind_ok {r : Res ε α} {f : α → Step σ ε β} {s s' : σ} {b : β} :
    ((lift r : Step σ ε α) >>= f) s = (.ok b, s') ↔ ∃ a, r = .ok a ∧ f a s = (.ok b, s') := by
  constructor
  · intro h
    obtain ⟨a, s1, h1, h2⟩ := bind_ok.1 h
    obtain ⟨h3, rfl⟩ := lift_ok.1 h1
    exact ⟨a, h3, h2⟩
  · rintro ⟨a, rfl, h⟩
    exact h

/-- `sbind h with ⟨a, s, e, h⟩`: split the hypothesis that a sequence succeeds; `slift` the same after a pure step. -/
macro "sbind " h:ident " with " p:Lean.Parser.Tactic.rcasesPatMed : tactic => `(tactic| (have tmp := Step.bind_ok.1 $h; clear $h; obtain $p := tmp))
macro "slift " h:ident " with " p:Lean.Parser.Tactic.rcasesPatMed : tactic => `(tactic| (have tmp := Step.lift_bind_ok.1 $h; clear $h; obtain $p := tmp))

end ATLS.Model.Step
