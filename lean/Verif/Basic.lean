/-
Shared vocabulary of the model: bytes, byte strings and the outcome of a Rust call.
-/
namespace ATLS

/-- A Rust `u8`. -/
abbrev Byte := BitVec 8

/-- A Rust `&[u8]` / `Vec<u8>` / `[u8; N]`. -/
abbrev Bytes := List Byte

/-- Outcome of a Rust call of type `Result<α, ε>`: a value, an error, or a panic
(`unwrap` on `None`, slice index out of range, arithmetic overflow with overflow checks, `todo!()`). -/
inductive Res (ε : Type) (α : Type) where
  | ok (a : α)
  | err (e : ε)
  | panic
  deriving DecidableEq, Repr

namespace Res

/-- Sequencing (Rust `?`). -/
def bind {ε α β : Type} (x : Res ε α) (f : α → Res ε β) : Res ε β :=
  match x with
  | .ok a => f a
  | .err e => .err e
  | .panic => .panic

instance {ε : Type} : Monad (Res ε) where
  pure := .ok
  bind := Res.bind

@[simp] theorem pure_eq {ε α : Type} (a : α) : (pure a : Res ε α) = .ok a := rfl
@[simp] theorem ok_bind {ε α β : Type} (a : α) (f : α → Res ε β) : (Res.ok a >>= f) = f a := rfl
@[simp] theorem err_bind {ε α β : Type} (e : ε) (f : α → Res ε β) : (Res.err e >>= f) = .err e := rfl
@[simp] theorem panic_bind {ε α β : Type} (f : α → Res ε β) : ((Res.panic : Res ε α) >>= f) = .panic := rfl

instance {ε : Type} : LawfulMonad (Res ε) := LawfulMonad.mk' (Res ε)
  (id_map := fun x => by cases x <;> rfl)
  (pure_bind := fun _ _ => rfl)
  (bind_assoc := fun x _ _ => by cases x <;> rfl)

theorem bind_eq_ok {ε α β : Type} {x : Res ε α} {f : α → Res ε β} {b : β} :
    (x >>= f) = .ok b ↔ ∃ a, x = .ok a ∧ f a = .ok b := by
  cases x <;> simp

/-- Rust `Result::map_err` / `match … Err(_) => return Err(e)`. -/
def mapErr {ε ε' α : Type} (f : ε → ε') : Res ε α → Res ε' α
  | .ok a => .ok a
  | .err e => .err (f e)
  | .panic => .panic

/-- Rust `Option::unwrap`. -/
def unwrap {ε α : Type} : Option α → Res ε α
  | some a => .ok a
  | none => .panic

/-- Rust `Option::ok_or`. -/
def okOr {ε α : Type} (e : ε) : Option α → Res ε α
  | some a => .ok a
  | none => .err e

/-- The call returned (with a value or an error) instead of panicking. -/
def returns {ε α : Type} : Res ε α → Prop
  | .panic => False
  | _ => True

instance {ε α : Type} (r : Res ε α) : Decidable r.returns := by
  cases r <;> simp only [returns] <;> infer_instance

end Res

/-- Rust indexing `buf[i]`: panics when out of range. -/
def idx {ε α : Type} (l : List α) (i : Nat) : Res ε α :=
  match l[i]? with
  | some a => .ok a
  | none => .panic

/-- Rust slicing `&buf[a..b]`: panics unless `a <= b <= buf.len()`. -/
def slice {ε α : Type} (l : List α) (a b : Nat) : Res ε (List α) :=
  if a ≤ b ∧ b ≤ l.length then .ok ((l.drop a).take (b - a)) else .panic

/-- Rust slicing `&buf[a..]`: panics unless `a <= buf.len()`. -/
def sliceFrom {ε α : Type} (l : List α) (a : Nat) : Res ε (List α) :=
  if a ≤ l.length then .ok (l.drop a) else .panic

/-- `vec![0; n]`. -/
def zeros (n : Nat) : Bytes := List.replicate n 0#8

/-- Byte-wise XOR of two strings (as long as the shorter one). -/
def xorBytes (a b : Bytes) : Bytes := List.zipWith (· ^^^ ·) a b

/-- The bytes of an ASCII string literal. -/
def ascii (s : String) : Bytes := s.toList.map fun c => BitVec.ofNat 8 c.toNat

end ATLS
