import Verif.Proof.Bytes
/-
Splitting strings into blocks.
-/
namespace ATLS
open ATLS.Spec ATLS.Model

@[simp] theorem chunks_nil (B : Nat) : chunks B [] = [] := by
  unfold chunks
  rcases Nat.eq_zero_or_pos B with h | h
  · subst h; simp
  · rw [show (([] : Bytes).length + (B - 1)) / B = 0 from by rw [List.length_nil, Nat.zero_add]; exact Nat.div_eq_of_lt (by omega)]; rfl

theorem chunks_step (B : Nat) (hB : 0 < B) (x : Bytes) (h : x ≠ []) : chunks B x = x.take B :: chunks B (x.drop B) := by
  unfold chunks
  have hl : 0 < x.length := List.length_pos_iff.mpr h
  have e : (x.length + (B - 1)) / B = ((x.drop B).length + (B - 1)) / B + 1 := by
    rw [List.length_drop]
    by_cases hx : B ≤ x.length
    · rw [← Nat.add_div_right _ hB]; congr 1; omega
    · rw [show x.length - B = 0 from by omega, Nat.zero_add, Nat.div_eq_of_lt (show B - 1 < B by omega)]
      rw [show x.length + (B - 1) = (x.length - 1) + B from by omega, Nat.add_div_right _ hB, Nat.div_eq_of_lt (by omega)]
  rw [e, List.range_succ_eq_map, List.map_cons, List.map_map]
  refine congrArg₂ _ (by simp) (List.map_congr_left ?_)
  intro i _
  simp only [Function.comp_apply, List.drop_drop]
  congr 2; rw [Nat.succ_mul]; omega

theorem chunks_append (B : Nat) (hB : 0 < B) (a b : Bytes) (h : a.length = B) : chunks B (a ++ b) = a :: chunks B b := by
  rw [chunks_step B hB _ (by rintro h'; rw [List.append_eq_nil_iff] at h'; rw [h'.1] at h; simp at h; omega)]
  rw [List.take_append_of_le_length (by omega), List.drop_append_of_le_length (by omega), List.take_of_length_le (by omega),
    List.drop_of_length_le (by omega), List.nil_append]

theorem chunks_small (B : Nat) (hB : 0 < B) (x : Bytes) (h : x ≠ []) (hl : x.length ≤ B) : chunks B x = [x] := by
  rw [chunks_step B hB x h, List.drop_of_length_le hl, chunks_nil, List.take_of_length_le hl]

/-- Induction over the blocks of a string. -/
theorem chunk_induction {motive : Bytes → Prop} (B : Nat) (hB : 0 < B) (nil : motive [])
    (step : ∀ x, x ≠ [] → motive (x.drop B) → motive x) (x : Bytes) : motive x := by
  generalize hn : x.length = n
  induction n using Nat.strongRecOn generalizing x with
  | _ n ih =>
    by_cases hx : x = []
    · subst hx; exact nil
    · refine step x hx (ih (x.drop B).length ?_ _ rfl)
      have := List.length_pos_iff.mpr hx
      rw [List.length_drop]; omega

theorem chunks_flatten (B : Nat) (hB : 0 < B) (x : Bytes) : (chunks B x).flatten = x := by
  induction x using chunk_induction B hB with
  | nil => simp
  | step x h ih => rw [chunks_step B hB x h, List.flatten_cons, ih, List.take_append_drop]

theorem blocks_append (B : Nat) (hB : 0 < B) (a b : Bytes) (h : a.length = B) : blocks B (a ++ b) = a :: blocks B b := by
  unfold blocks
  rw [List.length_append, h, Nat.add_comm B, Nat.add_div_right _ hB, List.range_succ_eq_map, List.map_cons, List.map_map]
  refine congrArg₂ _ (by rw [Nat.zero_mul, List.drop_zero, ← h, List.take_left']; rfl) (List.map_congr_left ?_)
  intro i _
  simp only [Function.comp_apply]
  rw [List.drop_append, List.drop_of_length_le (by rw [h, Nat.succ_mul]; omega), List.nil_append]
  congr 2; rw [h, Nat.succ_mul]; omega

theorem blocks_nil (B : Nat) : blocks B [] = [] := by simp [blocks]

end ATLS
