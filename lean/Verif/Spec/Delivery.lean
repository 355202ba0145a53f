import Verif.Spec.Handshake
/-
How a TCP connection may hand over a sequence of records: in which pieces the reads of the receiver return them.
-/
namespace ATLS.Spec.Tls13
open ATLS

/-- A complete record of one of the four types of RFC 8446: change_cipher_spec (20), alert (21), handshake (22), application_data (23). -/
def WholeRecord (wire : Bytes) : Prop := ∃ (type : Byte) (content : Bytes), type ∈ [20#8, 21#8, 22#8, 23#8] ∧ IsRecord type content wire

/-- The reads `reads` deliver the records `records`, each read a number of whole records and at most `cap` bytes. -/
def Delivers (cap : Nat) (records reads : List Bytes) : Prop :=
  ∃ groups : List (List Bytes), groups.flatten = records ∧ reads = groups.map List.flatten ∧ ∀ g ∈ groups, g ≠ [] ∧ g.flatten.length ≤ cap

/-- One record per read is a delivery, if the records are short enough. -/
theorem delivers_single {cap : Nat} {records : List Bytes} (h : ∀ r ∈ records, r.length ≤ cap) : Delivers cap records records := by
  refine ⟨records.map fun r => [r], ?_, ?_, ?_⟩
  · clear h; induction records with
    | nil => rfl
    | cons a l ih => rw [List.map_cons, List.flatten_cons, ih]; rfl
  · clear h; induction records with
    | nil => rfl
    | cons a l ih => simp only [List.map_cons, List.flatten_cons, List.flatten_nil, List.append_nil, ← ih]
  intro g hg
  obtain ⟨r, hr, rfl⟩ := List.mem_map.1 hg
  exact ⟨by simp, by simpa using h r hr⟩

/-- All records in one read is a delivery, if they are short enough together. -/
theorem delivers_all {cap : Nat} {records : List Bytes} (h : records.flatten.length ≤ cap) (h0 : records ≠ []) :
    Delivers cap records [records.flatten] := by
  refine ⟨[records], by simp, by simp, ?_⟩
  intro g hg
  rw [List.mem_singleton.1 hg]
  exact ⟨h0, h⟩

/-- `l'` is `l` with any number of additional elements satisfying `P` put in anywhere. -/
inductive Inserted (P : Bytes → Prop) : List Bytes → List Bytes → Prop
  | nil : Inserted P [] []
  | keep (w : Bytes) (l l' : List Bytes) : Inserted P l l' → Inserted P (w :: l) (w :: l')
  | add (w : Bytes) (l l' : List Bytes) : P w → Inserted P l l' → Inserted P l (w :: l')

/-- An element that is not one of the additional ones has its place in the original list. -/
theorem Inserted.split {P : Bytes → Prop} {l l' : List Bytes} (h : Inserted P l l') :
    ∀ (a : List Bytes) (w : Bytes) (b : List Bytes), a ++ w :: b = l' → ¬ P w → ∃ c d, c ++ w :: d = l ∧ Inserted P c a := by
  induction h with
  | nil => intro a w b h; simp at h
  | keep v l l' h ih =>
    intro a w b hab hw
    cases a with
    | nil =>
      obtain ⟨rfl, rfl⟩ := List.cons.inj hab
      exact ⟨[], l, rfl, .nil⟩
    | cons v' a =>
      obtain ⟨rfl, hab2⟩ := List.cons.inj hab
      obtain ⟨c, d, rfl, hi⟩ := ih a w b hab2 hw
      exact ⟨v' :: c, d, rfl, .keep _ _ _ hi⟩
  | add v l l' hv h ih =>
    intro a w b hab hw
    cases a with
    | nil =>
      obtain ⟨rfl, rfl⟩ := List.cons.inj hab
      exact absurd hv hw
    | cons v' a =>
      obtain ⟨rfl, hab2⟩ := List.cons.inj hab
      obtain ⟨c, d, e, hi⟩ := ih a w b hab2 hw
      exact ⟨c, d, e, .add _ _ _ hv hi⟩

/-- RFC 8446 5.1: the messages, several in one record or each in its own, none cut: the contents of the records. -/
def Coalesced (messages contents : List Bytes) : Prop :=
  ∃ groups : List (List Bytes), groups.flatten = messages ∧ contents = groups.map List.flatten ∧ ∀ g ∈ groups, g ≠ []

end ATLS.Spec.Tls13
