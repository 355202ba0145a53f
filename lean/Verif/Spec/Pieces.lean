import Verif.Spec.Delivery
/-
How a stream of records arrives at a receiver that keeps the beginning of a record until the rest of it arrives.
-/
namespace ATLS.Spec.Tls13
open ATLS

/-- `part` is the beginning of the record `w`, without its last bytes: not even the five bytes of the header are there, or four or more bytes
are missing. -/
def Begun (w part : Bytes) : Prop := part ≠ [] ∧ ∃ missing, w = part ++ missing ∧ missing ≠ [] ∧ (part.length < 5 ∨ 4 ≤ missing.length)

/-- The reads, none longer than `cap` bytes, deliver the records, after `held`, the beginning of the first record, has arrived already. A
record may be cut into any number of pieces, but the read with its last piece ends with the end of a record, and a piece that has the header
does not end within the last three bytes of the record. -/
inductive Pieces (cap : Nat) : Bytes → List Bytes → List Bytes → Prop
  /-- Everything has arrived. -/
  | done : Pieces cap [] [] []
  /-- A read of the whole records `g`. -/
  | whole {g records reads : List Bytes} : g ≠ [] → g.flatten.length ≤ cap → Pieces cap [] records reads →
      Pieces cap [] (g ++ records) (g.flatten :: reads)
  /-- A read of the whole records `g` and of the beginning of the next one. -/
  | begin {g records reads : List Bytes} {w part : Bytes} : Begun w part → (g.flatten ++ part).length ≤ cap → Pieces cap part (w :: records) reads →
      Pieces cap [] (g ++ w :: records) ((g.flatten ++ part) :: reads)
  /-- A read of another piece of the record, but not the last one. -/
  | more {held piece w : Bytes} {records reads : List Bytes} : held ≠ [] → piece ≠ [] → Begun w (held ++ piece) → piece.length ≤ cap →
      Pieces cap (held ++ piece) (w :: records) reads → Pieces cap held (w :: records) (piece :: reads)
  /-- A read of the last piece of the record and the whole records `g`. -/
  | last {held piece : Bytes} {g records reads : List Bytes} : held ≠ [] → piece ≠ [] → (piece ++ g.flatten).length ≤ cap → Pieces cap [] records reads →
      Pieces cap held ((held ++ piece) :: g ++ records) ((piece ++ g.flatten) :: reads)

/-- Reads of whole records are a special case. -/
theorem Delivers.pieces {cap : Nat} {records reads : List Bytes} (h : Delivers cap records reads) : Pieces cap [] records reads := by
  obtain ⟨groups, rfl, rfl, hg⟩ := h
  induction groups with
  | nil => exact .done
  | cons g gs ih => exact .whole (hg g (by simp)).1 (hg g (by simp)).2 (ih fun g' h' => hg g' (by simp [h']))

/-- The reads are the bytes of the records. -/
theorem Pieces.bytes {cap : Nat} {held : Bytes} {records reads : List Bytes} (h : Pieces cap held records reads) : held ++ reads.flatten = records.flatten := by
  induction h with
  | done => rfl
  | whole _ _ _ ih => simpa using ih
  | «begin» _ _ _ ih => simpa using ih
  | more _ _ _ _ _ ih => simpa using ih
  | last _ _ _ _ ih => simpa using ih

/-- No read is empty, unless a record is. -/
theorem Pieces.nonempty {cap : Nat} {held : Bytes} {records reads : List Bytes} (h : Pieces cap held records reads) : [] ∉ records → ∀ x ∈ reads, x ≠ [] := by
  induction h with
  | done => intro _ x hx; cases hx
  | @whole g records reads hg _ _ ih =>
    intro hr x hx
    rcases List.mem_cons.1 hx with rfl | hx
    · intro he
      obtain ⟨w, hw⟩ := List.exists_mem_of_ne_nil g hg
      exact hr (List.mem_append_left _ (by rw [← List.flatten_eq_nil_iff.1 he w hw]; exact hw))
    · exact ih (fun h => hr (List.mem_append_right _ h)) x hx
  | «begin» hb _ _ ih =>
    intro hr x hx
    rcases List.mem_cons.1 hx with rfl | hx
    · simp [hb.1]
    · exact ih (fun h => hr (List.mem_append_right _ h)) x hx
  | more _ hp _ _ _ ih =>
    intro hr x hx
    rcases List.mem_cons.1 hx with rfl | hx
    · exact hp
    · exact ih hr x hx
  | last _ hp _ _ ih =>
    intro hr x hx
    rcases List.mem_cons.1 hx with rfl | hx
    · simp [hp]
    · exact ih (fun h => hr (List.mem_append_right _ h)) x hx

theorem pieces_rest {cap : Nat} (hc : 6 ≤ cap) {records reads : List Bytes} (hr : Pieces cap [] records reads) (w : Bytes) : ∀ (n : Nat) (held missing : Bytes), missing.length ≤ n →
    held ≠ [] → missing ≠ [] → w = held ++ missing → ∃ reads', Pieces cap held (w :: records) reads'
  | 0, _, missing, hn, _, hm, _ => absurd (List.eq_nil_of_length_eq_zero (by omega)) hm
  | n + 1, held, missing, hn, hh, hm, hw => by
    by_cases hl : missing.length ≤ cap
    · exact ⟨_, by subst hw; exact Pieces.last (g := []) hh hm (by simpa using hl) hr⟩
    have hd : (missing.drop (cap - 4)).length = missing.length - (cap - 4) := List.length_drop
    have ht : (missing.take (cap - 4)).length = cap - 4 := by rw [List.length_take]; omega
    have hne : missing.drop (cap - 4) ≠ [] := fun h => by rw [h] at hd; simp at hd; omega
    have htn : missing.take (cap - 4) ≠ [] := fun h => by rw [h] at ht; simp at ht; omega
    obtain ⟨r, h⟩ := pieces_rest hc hr w n (held ++ missing.take (cap - 4)) (missing.drop (cap - 4)) (by omega) (by simp [hh]) hne
      (by rw [List.append_assoc, List.take_append_drop, hw])
    exact ⟨_, .more hh htn ⟨by simp [hh], _, by rw [List.append_assoc, List.take_append_drop]; exact hw, hne, Or.inr (by omega)⟩ (by omega) h⟩

/-- All records can be delivered, whatever their length. -/
theorem pieces_exist {cap : Nat} (hc : 6 ≤ cap) : ∀ records : List Bytes, [] ∉ records → ∃ reads, Pieces cap [] records reads
  | [], _ => ⟨_, .done⟩
  | w :: records, h => by
    obtain ⟨reads, hr⟩ := pieces_exist hc records fun h' => h (by simp [h'])
    have hw : w ≠ [] := fun e => h (by simp [e])
    by_cases hl : w.length ≤ cap
    · exact ⟨_, .whole (g := [w]) (by simp) (by simpa using hl) hr⟩
    have ht : (w.take 1).length = 1 := by rw [List.length_take]; omega
    have hd : (w.drop 1).length = w.length - 1 := List.length_drop
    have hne : w.drop 1 ≠ [] := fun h => by rw [h] at hd; simp at hd; omega
    have htn : w.take 1 ≠ [] := fun h => by rw [h] at ht; simp at ht
    obtain ⟨r, hp⟩ := pieces_rest hc hr w _ (w.take 1) (w.drop 1) (Nat.le_refl _) htn hne (List.take_append_drop 1 w).symm
    exact ⟨_, .begin (g := []) ⟨htn, _, (List.take_append_drop 1 w).symm, hne, Or.inl (by omega)⟩ (by simp; omega) hp⟩

end ATLS.Spec.Tls13
