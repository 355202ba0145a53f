import Verif.Props.Examples
import Verif.Props.ClientAlerts
import Verif.Spec.Interleave
/-
C99: a key log file that several connections write to.
-/
namespace ATLS
open ATLS.Model ATLS.Spec FlowProof KeyLogProof

/-- What a connection of the library, of either end and however it ends, appends to its key log. -/
def LoggedBy (log : List Bytes) : Prop :=
  (∃ env reads sock, (ServerConnection.accept env reads sock).2.logged = log) ∨
    ∃ env reads sock h, (ClientConnection.connect env reads sock).2 = some h ∧ h.logged = log

/-- C99 for the contents `out` that `Sched` allows the connections with the given logs to append: the lines of the file are those it had before and
those of the connections. -/
def C99_for (Sched : List (List Bytes) → Bytes → Prop) : Prop :=
  ∀ (logs : List (List Bytes)) (before out : Bytes), (∀ log ∈ logs, LoggedBy log) → (∃ ls, IsLines before ls) → Sched logs out →
    ∀ line, line ∈ lines (before ++ out) ↔ line ∈ lines before ∨ ∃ log ∈ logs, ∃ chunk ∈ log, line ∈ lines chunk

/-- C99 in full: connections that run at the same time, their writes in any order. -/
def C99_statement : Prop := C99_for fun logs out => ∃ ws, Interleaved (logs.map fun log => log.flatMap KeyLog.writes) ws ∧ out = ws.flatten

namespace SharedLogProof

theorem chunk_lines {log : List Bytes} (h : LoggedBy log) : ∀ chunk ∈ log, ∃ random, Chunk random chunk := by
  rcases h with ⟨env, reads, sock, rfl⟩ | ⟨env, reads, sock, h, hc, rfl⟩
  · exact C58_server_lines env reads sock
  · exact C58_client_lines env reads sock h hc

theorem splitOn_ne (b : Bytes) : b.splitOn 0x0a#8 ≠ [] := by
  simpa [List.splitOn] using List.splitOnP_ne_nil (· == 0x0a#8) b

theorem lines_cons (l b : Bytes) (h : 0x0a#8 ∉ l) : lines (l ++ 0x0a#8 :: b) = l :: lines b := by
  unfold lines
  rw [splitOn_sep _ _ _ h, List.dropLast_cons_of_ne_nil (splitOn_ne b)]

theorem nl_lines (n : Nat) : ∀ (t l : Bytes), t.length ≤ n → l ∈ lines t → 0x0a#8 ∉ l := by
  induction n with
  | zero =>
    intro t l ht h
    obtain rfl := List.length_eq_zero_iff.1 (Nat.le_zero.1 ht)
    simp [lines, List.splitOn] at h
  | succ n ih =>
    intro t l ht h
    by_cases hm : 0x0a#8 ∈ t
    · obtain ⟨a, b, rfl, ha⟩ := List.eq_append_cons_of_mem hm
      rw [lines_cons _ _ ha] at h
      rcases List.mem_cons.1 h with rfl | h
      · exact ha
      · refine ih b l ?_ h
        simp only [List.length_append, List.length_cons] at ht
        omega
    · unfold lines at h
      rw [splitOn_none _ _ hm] at h
      cases h

theorem lines_flatMap (ls : List Bytes) (h : ∀ l ∈ ls, 0x0a#8 ∉ l) (b : Bytes) : lines (ls.flatMap (fun l => l ++ [0x0a#8]) ++ b) = ls ++ lines b := by
  induction ls with
  | nil => rfl
  | cons l ls ih =>
    rw [List.flatMap_cons, List.append_assoc, List.append_assoc, List.singleton_append, lines_cons _ _ (h l List.mem_cons_self),
      ih fun x hx => h x (List.mem_cons_of_mem _ hx)]
    rfl

theorem lines_append {a : Bytes} {ls : List Bytes} (h : IsLines a ls) (b : Bytes) : lines (a ++ b) = lines a ++ lines b := by
  obtain ⟨h1, h2⟩ := h
  have hn : ∀ l ∈ ls, 0x0a#8 ∉ l := fun l hl => nl_lines _ a l le_rfl (h2 ▸ hl)
  rw [h2, h1]
  exact lines_flatMap ls hn b

theorem lines_nil : lines [] = [] := by simp [lines, List.splitOn]

theorem lines_flatten (ws : List Bytes) (h : ∀ w ∈ ws, ∃ ls, IsLines w ls) : lines ws.flatten = ws.flatMap lines := by
  induction ws with
  | nil => exact lines_nil
  | cons w ws ih =>
    obtain ⟨ls, hl⟩ := h w List.mem_cons_self
    rw [List.flatten_cons, lines_append hl, ih fun x hx => h x (List.mem_cons_of_mem _ hx)]
    rfl

theorem interleaved_mem {writers : List (List Bytes)} {ws : List Bytes} (h : Interleaved writers ws) (w : Bytes) : w ∈ ws ↔ ∃ l ∈ writers, w ∈ l := by
  induction h with
  | done h =>
    constructor
    · intro hw; cases hw
    · rintro ⟨l, hl, hw⟩
      rw [h l hl] at hw
      cases hw
  | step _ ih =>
    rw [List.mem_cons, ih]
    simp only [List.mem_append, List.mem_cons]
    constructor
    · rintro (rfl | ⟨l, (hl | rfl | hl), hw⟩)
      · exact ⟨_, .inr (.inl rfl), List.mem_cons_self⟩
      · exact ⟨l, .inl hl, hw⟩
      · exact ⟨_, .inr (.inl rfl), List.mem_cons_of_mem _ hw⟩
      · exact ⟨l, .inr (.inr hl), hw⟩
    · rintro ⟨l, (hl | rfl | hl), hw⟩
      · exact .inr ⟨l, .inl hl, hw⟩
      · rcases List.mem_cons.1 hw with rfl | hw
        · exact .inl rfl
        · exact .inr ⟨_, .inr (.inl rfl), hw⟩
      · exact .inr ⟨l, .inr (.inr hl), hw⟩

/-- The two writes of a chunk make up the chunk. -/
theorem writes_flatten {random chunk : Bytes} (h : Chunk random chunk) : (KeyLog.writes chunk).flatten = chunk := by
  obtain ⟨l1, l2, _, _, ⟨e, _⟩, _⟩ := h
  have nl : ascii "\n" = [0x0a#8] := by decide
  have e' : chunk = (l1 ++ 0x0a#8 :: l2) ++ [0x0a#8] := by rw [e]; simp
  unfold KeyLog.writes KeyLog.appendToFile
  rw [e', nl, List.dropLast_concat]
  simp

theorem run_writer {a b : List (List Bytes)} (w ws : List Bytes) {out : List Bytes} (h : Interleaved (a ++ ws :: b) out) :
    Interleaved (a ++ (w ++ ws) :: b) (w ++ out) := by
  induction w with
  | nil => exact h
  | cons x w ih => exact .step ih

theorem run_all : ∀ (writers : List (List Bytes)), Interleaved writers writers.flatten
  | [] => .done fun w h => by cases h
  | w :: writers => by
    have h : Interleaved ([] ++ [] :: writers) writers.flatten := pad (run_all writers)
    have := run_writer (a := []) w [] h
    rw [List.append_nil] at this
    exact this
where
  pad {writers : List (List Bytes)} {out : List Bytes} (h : Interleaved writers out) : Interleaved ([] :: writers) out := by
    induction h with
    | done h =>
      refine .done fun w hw => ?_
      rcases List.mem_cons.1 hw with rfl | hw
      · rfl
      · exact h w hw
    | step _ ih => exact Interleaved.step (a := [] :: _) ih

/-- A line of the log has three fields. -/
theorem three_fields {random chunk line : Bytes} (h : Chunk random chunk) (hl : line ∈ lines chunk) : (fields line).length = 3 := by
  obtain ⟨l1, l2, _, _, ⟨_, e⟩, hs⟩ := h
  rw [e] at hl
  simp only [List.mem_cons, List.not_mem_nil, or_false] at hl
  rcases hs with ⟨⟨_, _, h1, _⟩, ⟨_, _, h2, _⟩⟩ | ⟨⟨_, _, h1, _⟩, ⟨_, _, h2, _⟩⟩ <;> rcases hl with rfl | rfl <;> simp [h1, h2]

theorem fields_count (l : Bytes) : (fields l).length = l.count 0x20#8 + 1 := by
  induction l with
  | nil => simp [fields, List.splitOn]
  | cons x l ih =>
    unfold fields at ih ⊢
    by_cases hx : x = 0x20#8
    · subst hx
      have := splitOn_sep 0x20#8 [] l (by simp)
      rw [List.nil_append] at this
      rw [this, List.length_cons, ih, List.count_cons_self]
    · have : ((x :: l).splitOn 0x20#8).length = (l.splitOn 0x20#8).length := by
        simp [List.splitOn, List.splitOnP_cons_eq_if_modifyHead, hx]
      rw [this, ih, List.count_cons_of_ne hx]

end SharedLogProof

open SharedLogProof

/-- C99 when no connection appends while another is between the two writes of an append: any number of connections, each appending in its own order, in every
order among them. Missing: appends that overlap (`C99_joined`). -/
theorem C99_appends_partial : C99_for fun logs out => ∃ chunks, Interleaved logs chunks ∧ out = chunks.flatten := by
  rintro logs before _ hl ⟨ls, hb⟩ ⟨chunks, hi, rfl⟩ line
  have hm := fun w => interleaved_mem hi w
  have hc : ∀ w ∈ chunks, ∃ ls, IsLines w ls := fun w hw => by
    obtain ⟨log, h1, h2⟩ := (hm w).1 hw
    obtain ⟨_, l1, l2, _, _, h3, _⟩ := chunk_lines (hl log h1) w h2
    exact ⟨_, h3⟩
  rw [lines_append hb, List.mem_append, lines_flatten _ hc, List.mem_flatMap]
  constructor
  · rintro (h | ⟨c, h1, h2⟩)
    · exact .inl h
    · obtain ⟨log, h3, h4⟩ := (hm c).1 h1
      exact .inr ⟨log, h3, c, h4, h2⟩
  · rintro (h | ⟨log, h1, c, h2, h3⟩)
    · exact .inl h
    · exact .inr ⟨c, (hm c).2 ⟨log, h1, h2⟩, h3⟩

/-- The orders of `C99_appends_partial` are among those of C99: the appends one after the other, each with its two writes. -/
theorem C99_appends_possible (logs : List (List Bytes)) (chunks : List Bytes) (hl : ∀ log ∈ logs, LoggedBy log) (h : Interleaved logs chunks) :
    ∃ ws, Interleaved (logs.map fun log => log.flatMap KeyLog.writes) ws ∧ ws.flatten = chunks.flatten := by
  have hc : ∀ w ∈ chunks, ∃ random, Chunk random w := fun w hw => by
    obtain ⟨log, h1, h2⟩ := (interleaved_mem h w).1 hw
    exact chunk_lines (hl log h1) w h2
  clear hl
  induction h with
  | done h =>
    refine ⟨[], .done fun w hw => ?_, rfl⟩
    obtain ⟨log, h1, rfl⟩ := List.mem_map.1 hw
    rw [h log h1]
    rfl
  | @step a b w ws out _ ih =>
    obtain ⟨o, h1, h2⟩ := ih fun x hx => hc x (List.mem_cons_of_mem _ hx)
    obtain ⟨random, hw⟩ := hc w List.mem_cons_self
    refine ⟨KeyLog.writes w ++ o, ?_, ?_⟩
    · rw [List.map_append, List.map_cons] at h1 ⊢
      rw [List.flatMap_cons]
      exact run_writer _ _ h1
    · rw [List.flatten_append, writes_flatten hw, h2, List.flatten_cons]

/-- C99, what happens when the first appends of two connections overlap: the client's secret of the one and the server's of the other are on one line, the file has an
empty line, and the rest of the log is as it should be. For all logs of the library that are not empty. -/
theorem C99_joined (a b : Bytes) (as bs : List Bytes) (ha : LoggedBy (a :: as)) (hb : LoggedBy (b :: bs)) :
    ∃ l1 l2 m1 m2 ws, lines a = [l1, l2] ∧ lines b = [m1, m2] ∧
      Interleaved ([a :: as, b :: bs].map fun log => log.flatMap KeyLog.writes) ws ∧
      lines ws.flatten = [l1, l2 ++ m1, m2, []] ++ as.flatMap lines ++ bs.flatMap lines ∧ (fields (l2 ++ m1)).length = 5 := by
  have ca := chunk_lines ha
  have cb := chunk_lines hb
  obtain ⟨ra, hca⟩ := ca a List.mem_cons_self
  obtain ⟨rb, hcb⟩ := cb b List.mem_cons_self
  have t1 := fun l => three_fields (line := l) hca
  have t2 := fun l => three_fields (line := l) hcb
  obtain ⟨l1, l2, _, _, ⟨e1, e2⟩, _⟩ := hca
  obtain ⟨m1, m2, _, _, ⟨f1, f2⟩, _⟩ := hcb
  have n1 : ∀ l ∈ [l1, l2], 0x0a#8 ∉ l := fun l hl => nl_lines _ a l le_rfl (e2 ▸ hl)
  have n2 : ∀ l ∈ [m1, m2], 0x0a#8 ∉ l := fun l hl => nl_lines _ b l le_rfl (f2 ▸ hl)
  have nl : ascii "\n" = [0x0a#8] := by decide
  have w1 : KeyLog.writes a = [l1 ++ 0x0a#8 :: l2, [0x0a#8]] := by
    have : a = (l1 ++ 0x0a#8 :: l2) ++ [0x0a#8] := by rw [e1]; simp
    unfold KeyLog.writes KeyLog.appendToFile
    rw [this, List.dropLast_concat, nl]
  have w2 : KeyLog.writes b = [m1 ++ 0x0a#8 :: m2, [0x0a#8]] := by
    have : b = (m1 ++ 0x0a#8 :: m2) ++ [0x0a#8] := by rw [f1]; simp
    unfold KeyLog.writes KeyLog.appendToFile
    rw [this, List.dropLast_concat, nl]
  have fl : ∀ cs : List Bytes, (∀ c ∈ cs, ∃ random, Chunk random c) → (cs.flatMap KeyLog.writes).flatten = cs.flatten := by
    intro cs h
    induction cs with
    | nil => rfl
    | cons c cs ih =>
      obtain ⟨_, hc⟩ := h c List.mem_cons_self
      rw [List.flatMap_cons, List.flatten_append, writes_flatten hc, ih fun x hx => h x (List.mem_cons_of_mem _ hx), List.flatten_cons]
  have il : ∀ cs : List Bytes, (∀ c ∈ cs, ∃ random, Chunk random c) → ∀ c ∈ cs, ∃ ls, IsLines c ls := by
    intro cs h c hc
    obtain ⟨_, _, _, _, _, hl, _⟩ := h c hc
    exact ⟨_, hl⟩
  have ca' := fun c hc => ca c (List.mem_cons_of_mem a hc)
  have cb' := fun c hc => cb c (List.mem_cons_of_mem b hc)
  refine ⟨l1, l2, m1, m2, (l1 ++ 0x0a#8 :: l2) :: (m1 ++ 0x0a#8 :: m2) :: [0x0a#8] :: [0x0a#8] :: (as.flatMap KeyLog.writes ++ bs.flatMap KeyLog.writes), e2, f2, ?_, ?_, ?_⟩
  · simp only [List.map_cons, List.map_nil, List.flatMap_cons, w1, w2, List.cons_append, List.nil_append]
    refine Interleaved.step (a := []) (Interleaved.step (a := [_]) (Interleaved.step (a := []) (Interleaved.step (a := [_]) ?_)))
    have := run_all [as.flatMap KeyLog.writes, bs.flatMap KeyLog.writes]
    simpa using this
  · have hr : ((l1 ++ 0x0a#8 :: l2) :: (m1 ++ 0x0a#8 :: m2) :: [0x0a#8] :: [0x0a#8] :: (as.flatMap KeyLog.writes ++ bs.flatMap KeyLog.writes)).flatten =
        [l1, l2 ++ m1, m2, []].flatMap (fun l => l ++ [0x0a#8]) ++ (as ++ bs).flatten := by
      simp only [List.flatten_cons, List.flatten_append, fl as ca', fl bs cb', List.flatMap_cons, List.flatMap_nil]
      simp
    rw [hr, lines_flatMap, lines_flatten, List.flatMap_append, List.append_assoc]
    · exact il _ fun c hc => (List.mem_append.1 hc).elim (ca' c) (cb' c)
    · intro l hl
      simp only [List.mem_cons, List.not_mem_nil, or_false] at hl
      rcases hl with rfl | rfl | rfl | rfl
      · exact n1 _ (by simp)
      · simp only [List.mem_append, not_or]
        exact ⟨n1 _ (by simp), n2 _ (by simp)⟩
      · exact n2 _ (by simp)
      · simp
  · have h1 := t1 l2 (by rw [e2]; simp)
    have h2 := t2 m1 (by rw [f2]; simp)
    rw [fields_count] at h1 h2 ⊢
    rw [List.count_append]
    omega

/-- Connections with logs, for the theorems above: a server and a client of the library. -/
theorem C99_example : ∃ a as b bs, LoggedBy (a :: as) ∧ LoggedBy (b :: bs) ∧ as.length = 1 ∧ bs.length = 1 := by
  obtain ⟨⟨env, reads, sock, s, h, g, hl⟩, ⟨env', reads', sock', s', h', g', hl'⟩⟩ := C78_example
  obtain ⟨a, a', e⟩ := List.length_eq_two.1 hl
  obtain ⟨b, b', e'⟩ := List.length_eq_two.1 hl'
  exact ⟨a, [a'], b, [b'], .inl ⟨env, reads, sock, by rw [g]; exact e⟩, .inr ⟨env', reads', sock', h', by rw [g'], e'⟩, rfl, rfl⟩

/-- C99 in full is false: when two appends overlap, the file has a line that no connection wrote. -/
theorem C99_false : ¬ C99_statement := by
  intro h
  obtain ⟨a, as, b, bs, ha, hb, _⟩ := C99_example
  obtain ⟨l1, l2, m1, m2, ws, _, _, hi, hl, h5⟩ := C99_joined a b as bs ha hb
  have hlogs : ∀ log ∈ [a :: as, b :: bs], LoggedBy log := fun log hm => by
    simp only [List.mem_cons, List.not_mem_nil, or_false] at hm
    rcases hm with rfl | rfl
    · exact ha
    · exact hb
  have := (h [a :: as, b :: bs] [] ws.flatten hlogs ⟨[], rfl, lines_nil⟩ ⟨ws, hi, rfl⟩ (l2 ++ m1)).1 (by rw [List.nil_append, hl]; simp)
  rcases this with h | ⟨log, h1, c, h2, h3⟩
  · rw [lines_nil] at h
    cases h
  · obtain ⟨r, hc⟩ := chunk_lines (hlogs log h1) c h2
    have := three_fields hc h3
    omega

end ATLS
