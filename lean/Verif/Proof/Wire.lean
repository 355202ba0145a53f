import Verif.Model.Handshake
import Verif.Model.Hello
import Verif.Proof.Bytes
import Mathlib.Tactic.SplitIfs
/-
Lemmas on the length-prefixed wire formats.
-/
namespace ATLS.WireProof
open ATLS ATLS.Spec ATLS.Model

theorem shl_or (a b : Nat) (h : b < 256) : (a <<< 8) ||| b = a * 256 + b := by
  rw [← Nat.shiftLeft_add_eq_or_of_lt (by simpa using h) a, Nat.shiftLeft_eq]

theorem shl_or3 (a b c : Nat) (hb : b < 256) (hc : c < 256) : (a <<< 16) ||| (b <<< 8) ||| c = a * 65536 + b * 256 + c := by
  rw [Nat.or_assoc, shl_or _ _ hc, ← Nat.shiftLeft_add_eq_or_of_lt (by omega) a, Nat.shiftLeft_eq]
  omega

theorem toU16_cons (a b : Byte) (r : Bytes) : toU16 (a :: b :: r) = a.toNat * 256 + b.toNat := shl_or _ _ b.isLt

theorem u16Bytes_val (v : Nat) (h : v < 65536) : (BitVec.ofNat 8 (v >>> 8)).toNat * 256 + (BitVec.ofNat 8 v).toNat = v := by
  simp only [BitVec.toNat_ofNat, Nat.shiftRight_eq_div_pow]; omega

theorem toU16_u16Bytes (v : Nat) (h : v < 65536) (r : Bytes) : toU16 (u16Bytes v ++ r) = v := by
  unfold u16Bytes
  simp only [List.cons_append, List.nil_append]
  rw [toU16_cons, u16Bytes_val v h]

theorem toU16_lt (b : Bytes) : toU16 b < 65536 := by
  match b with
  | [] => decide
  | [a] => simp only [toU16]; have := a.isLt; omega
  | a :: b :: r => rw [toU16_cons]; have := a.isLt; have := b.isLt; omega

@[simp] theorem u16Bytes_length (v : Nat) : (u16Bytes v).length = 2 := rfl

theorem slice_mid {ε α : Type} (a b c : List α) {n m : Nat} (hn : n = a.length) (hm : m = n + b.length) :
    slice (ε := ε) (a ++ (b ++ c)) n m = .ok b := by
  subst hn hm
  unfold slice
  rw [if_pos ⟨by omega, by simp⟩]
  simp

theorem slice_pre {ε α : Type} (b c : List α) {m : Nat} (hm : m = b.length) : slice (ε := ε) (b ++ c) 0 m = .ok b := by
  have := slice_mid (ε := ε) [] b c (n := 0) (m := m) rfl (by omega)
  simpa using this

theorem slice_ok {ε α : Type} {l r : List α} {a b : Nat} (h : slice (ε := ε) l a b = .ok r) :
    a ≤ b ∧ b ≤ l.length ∧ r = (l.drop a).take (b - a) := by
  unfold slice at h
  split_ifs at h with hc
  cases h
  exact ⟨hc.1, hc.2, rfl⟩

theorem slice_ne_err {ε α : Type} {l : List α} {a b : Nat} {e : ε} : slice (ε := ε) l a b ≠ .err e := by
  unfold slice; split_ifs <;> simp

theorem slice_panic_iff {ε α : Type} {l : List α} {a b : Nat} : slice (ε := ε) l a b = .panic ↔ ¬ (a ≤ b ∧ b ≤ l.length) := by
  unfold slice; split_ifs with h <;> simp [h]

theorem idx_append {ε α : Type} (a : List α) (x : α) (c : List α) {n : Nat} (hn : n = a.length) : idx (ε := ε) (a ++ x :: c) n = .ok x := by
  subst hn
  unfold idx
  simp

theorem idx_lt {ε α : Type} (l : List α) (n : Nat) (h : n < l.length) : idx (ε := ε) l n = .ok l[n] := by
  unfold idx; rw [List.getElem?_eq_getElem h]

theorem idx_panic_iff {ε α : Type} {l : List α} {n : Nat} : idx (ε := ε) l n = .panic ↔ l.length ≤ n := by
  unfold idx
  rcases h : l[n]? with _ | a
  · simp at h; simpa using h
  · simp only [reduceCtorEq, false_iff, Nat.not_le]
    exact (List.getElem?_eq_some_iff.1 h).1

theorem sliceFrom_ok {ε α : Type} (a c : List α) {n : Nat} (hn : n = a.length) : sliceFrom (ε := ε) (a ++ c) n = .ok c := by
  subst hn
  unfold sliceFrom
  rw [if_pos (by simp)]
  simp

end ATLS.WireProof
