import Verif.Model.Time
import Verif.Spec.Time
import Mathlib.Tactic.IntervalCases
/-
C51, C52: certificate times.
-/
namespace ATLS
open ATLS.Spec ATLS.Model

namespace TimeProof

theorem digits_two (n : Nat) (h : n < 100) (rest : Bytes) : strToU16 (ε := Unit) (Time.two n ++ rest) = .ok n := by
  interval_cases n <;> rfl

theorem daysToYear_eq (n : Nat) :
    Time.daysToYear n + (1970 + n - 1 - 1900) / 100 = n * 365 + (1970 + n - 1 - 1968) / 4 + (1970 + n - 1 - 1600) / 400 := by
  induction n with
  | zero => rfl
  | succ n ih =>
    rw [Time.daysToYear, Time.yearDays]
    have hl : Time.isLeap (1970 + n) = true ↔ ((1970 + n) % 4 = 0 ∧ ((1970 + n) % 100 ≠ 0 ∨ (1970 + n) % 400 = 0)) := by
      simp [Time.isLeap]
    by_cases h : Time.isLeap (1970 + n) = true
    · rw [if_pos h]
      rw [hl] at h
      omega
    · rw [if_neg h]
      rw [hl] at h
      omega

/-- The code's table counts the days of a common year. -/
theorem table_eq (y m : Nat) (h1 : 1 ≤ m) (h2 : m ≤ 12) :
    ∃ d, idx (ε := Unit) [0, 31, 59, 90, 120, 151, 181, 212, 243, 273, 304, 334] (m - 1) = .ok d ∧
      Time.daysToMonth y m = d + if 3 ≤ m ∧ Time.isLeap y = true then 1 else 0 := by
  have h : Time.isLeap y = true ∨ Time.isLeap y = false := by cases Time.isLeap y <;> simp
  rcases h with h | h <;> interval_cases m <;>
    exact ⟨_, rfl, by simp [Time.daysToMonth, Time.monthDays, h]⟩

theorem unix_eq (t : UtcTime) (hv : Time.Valid t.year t.month t.day t.hour t.minute t.second) :
    ∃ v, t.getUnixTimestamp (ε := Unit) = .ok v ∧ Time.unix t.year t.month t.day t.hour t.minute t.second =
      v + if 3 ≤ t.month ∧ Time.isLeap t.year = true then 86400 else 0 := by
  obtain ⟨hy, ⟨hm1, hm2⟩, ⟨hd1, _⟩, _⟩ := hv
  obtain ⟨d, hd, htab⟩ := table_eq t.year t.month hm1 hm2
  have hdays := daysToYear_eq (t.year - 1970)
  rw [show 1970 + (t.year - 1970) = t.year by omega] at hdays
  unfold UtcTime.getUnixTimestamp UtcTime.sub
  have q : (t.year - 1 - 1900) / 100 ≤ (t.year - 1 - 1968) / 4 ∨ t.year < 2050 := by omega
  rw [if_pos (by omega : 1 ≤ t.year)]
  simp only [Res.ok_bind]
  rw [if_pos (by omega : 1968 ≤ t.year - 1)]
  simp only [Res.ok_bind]
  rw [if_pos (by omega : 1900 ≤ t.year - 1)]
  simp only [Res.ok_bind]
  rw [if_pos (by omega : 1600 ≤ t.year - 1)]
  simp only [Res.ok_bind]
  rw [if_pos (by omega : (t.year - 1 - 1900) / 100 ≤ (t.year - 1 - 1968) / 4)]
  simp only [Res.ok_bind]
  rw [if_pos (by omega : 1970 ≤ t.year)]
  simp only [Res.ok_bind]
  rw [if_pos hm1]
  simp only [Res.ok_bind, hd]
  rw [if_pos hd1]
  simp only [Res.ok_bind]
  refine ⟨_, rfl, ?_⟩
  unfold Time.unix
  rw [htab]
  split_ifs <;> omega

end TimeProof

open TimeProof

/-- C51 for the dates satisfying `P`: the UTCTime of an existing date of the years 1970 to 2049 is read as that date and converted to its Unix
time. -/
def C51_for (P : Nat → Nat → Prop) : Prop :=
  ∀ year month day hour minute second, Time.Valid year month day hour minute second → year ≤ 2049 → P year month →
    UtcTime.fromUtcTimestamp (Time.utcTime year month day hour minute second) = .ok ⟨year, month, day, hour, minute, second⟩ ∧
    UtcTime.getUnixTimestamp (ε := Unit) ⟨year, month, day, hour, minute, second⟩ = .ok (Time.unix year month day hour minute second)

/-- C51 in full. -/
def C51_statement : Prop := C51_for fun _ _ => True

/-- The dates of all the years UTCTime can express are read correctly. -/
theorem C51_parse (year month day hour minute second : Nat) (hv : Time.InCalendar year month day hour minute second) (hy1 : 1950 ≤ year)
    (hy : year ≤ 2049) :
    UtcTime.fromUtcTimestamp (Time.utcTime year month day hour minute second) = .ok ⟨year, month, day, hour, minute, second⟩ := by
  obtain ⟨⟨hm1, hm2⟩, ⟨hd1, hd2⟩, hh, hmi, hs⟩ := hv
  have hd3 : day ≤ 31 := by
    refine le_trans hd2 ?_
    unfold Time.monthDays
    split <;> (try split) <;> omega
  unfold UtcTime.fromUtcTimestamp
  rw [if_neg (by simp [Time.utcTime, Time.two])]
  have e : Time.utcTime year month day hour minute second = Time.two (year % 100) ++ (Time.two month ++ (Time.two day ++ (Time.two hour ++
      (Time.two minute ++ (Time.two second ++ [0x5a#8]))))) := by simp [Time.utcTime]
  have hdrop : ∀ n (r : Bytes), (Time.two n ++ r).drop 2 = r := fun n r => rfl
  rw [e]
  rw [show ∀ l : Bytes, l.drop 4 = (l.drop 2).drop 2 from fun l => by rw [List.drop_drop],
    show ∀ l : Bytes, l.drop 6 = ((l.drop 2).drop 2).drop 2 from fun l => by rw [List.drop_drop, List.drop_drop],
    show ∀ l : Bytes, l.drop 8 = (((l.drop 2).drop 2).drop 2).drop 2 from fun l => by rw [List.drop_drop, List.drop_drop, List.drop_drop],
    show ∀ l : Bytes, l.drop 10 = ((((l.drop 2).drop 2).drop 2).drop 2).drop 2 from
      fun l => by rw [List.drop_drop, List.drop_drop, List.drop_drop, List.drop_drop]]
  simp only [hdrop]
  rw [digits_two _ (by omega), digits_two _ (by omega), digits_two _ (by omega), digits_two _ (by omega), digits_two _ (by omega),
    digits_two _ (by omega)]
  simp only [Res.ok_bind, Res.ok.injEq, UtcTime.mk.injEq, and_true]
  split_ifs <;> omega

example := C51_parse 2023 6 1 12 30 59 (by simp [Time.InCalendar, Time.monthDays, Time.isLeap]) (by decide) (by decide)

/-- C51 except for the dates from 1 March on in leap years. Missing: those, which the code converts to a time one day too early (`C51_offset`). -/
theorem C51_unix_time_partial : C51_for fun year month => month ≤ 2 ∨ Time.isLeap year = false := by
  intro year month day hour minute second hv hy hP
  refine ⟨C51_parse _ _ _ _ _ _ hv.2 (by have := hv.1; omega) hy, ?_⟩
  obtain ⟨v, h1, h2⟩ := unix_eq ⟨year, month, day, hour, minute, second⟩ hv
  rw [h1]
  have hc : ¬ (3 ≤ month ∧ Time.isLeap year = true) := by
    rintro ⟨h3, h4⟩
    rcases hP with h | h
    · omega
    · rw [h] at h4; cases h4
  simp only [] at h2
  rw [if_neg hc] at h2
  rw [h2, Nat.add_zero]

/-- From 1 March on in a leap year the computed time is exactly one day too early. -/
theorem C51_offset (t : UtcTime) (hv : Time.Valid t.year t.month t.day t.hour t.minute t.second) (h3 : 3 ≤ t.month)
    (hl : Time.isLeap t.year = true) :
    ∃ v, t.getUnixTimestamp (ε := Unit) = .ok v ∧ Time.unix t.year t.month t.day t.hour t.minute t.second = v + 86400 := by
  obtain ⟨v, h1, h2⟩ := unix_eq t hv
  exact ⟨v, h1, by rw [h2, if_pos ⟨h3, hl⟩]⟩

example : Time.unix 2023 3 16 18 3 52 = 1678989832 ∧ Time.Valid 2023 3 16 18 3 52 := by decide +kernel

/-- C51 is false: 1 March 2024 00:00:00 is taken for 29 February. -/
theorem C51_false : ¬ C51_statement := by
  intro h
  have := (h 2024 3 1 0 0 0 (by decide +kernel) (by decide) trivial).2
  revert this
  decide +kernel

/-- UTCTime years 50 to 69 (1950 to 1969), legal in RFC 5280, make the conversion panic. -/
theorem C51_before_1970 (t : UtcTime) (h : t.year < 1970) : t.getUnixTimestamp (ε := Unit) = .panic := by
  unfold UtcTime.getUnixTimestamp UtcTime.sub
  by_cases h1 : 1 ≤ t.year
  swap
  · rw [if_neg h1]; rfl
  rw [if_pos h1]
  simp only [Res.ok_bind]
  by_cases h2 : 1968 ≤ t.year - 1
  swap
  · rw [if_neg h2]; rfl
  rw [if_pos h2]
  simp only [Res.ok_bind]
  rw [if_pos (by omega : 1900 ≤ t.year - 1)]
  simp only [Res.ok_bind]
  rw [if_pos (by omega : 1600 ≤ t.year - 1)]
  simp only [Res.ok_bind]
  rw [if_pos (by omega : (t.year - 1 - 1900) / 100 ≤ (t.year - 1 - 1968) / 4) ]
  simp only [Res.ok_bind]
  rw [if_neg (by omega : ¬ 1970 ≤ t.year)]
  rfl

example := C51_before_1970 ⟨1950, 1, 1, 0, 0, 0⟩ (by decide)

/-- What the reader makes of a character: the digits 1 to 9 count, every other character is taken for 0. -/
def Spec.Time.digit (c : Byte) : Nat := if 0x31 ≤ c.toNat ∧ c.toNat ≤ 0x39 then c.toNat - 0x30 else 0

/-- The two characters at position `i` of a text as a number. -/
def Spec.Time.pairAt (t : Bytes) (i : Nat) : Nat := Time.digit (t.getD i 0#8) * 10 + Time.digit (t.getD (i + 1) 0#8)

theorem TimeProof.two_at (t : Bytes) (i : Nat) (h : i + 2 ≤ t.length) :
    strToU16 (ε := Unit) (t.drop i) =
      if (t.getD i 0#8).toNat < 0x80 ∧ (t.getD (i + 1) 0#8).toNat < 0x80 then .ok (Time.pairAt t i) else .panic := by
  have h1 : i < t.length := by omega
  have h2 : i + 1 < t.length := by omega
  rw [List.drop_eq_getElem_cons h1, List.drop_eq_getElem_cons h2]
  simp only [strToU16, strToU8, Time.pairAt, Time.digit, List.getD_eq_getElem?_getD, List.getElem?_eq_getElem h1, List.getElem?_eq_getElem h2,
    Option.getD_some]

/-- Every text, not only well-formed dates: fewer than twelve bytes are an error; a character outside ASCII among the first twelve bytes makes
the reader panic; everything else is accepted, whatever the characters are and whatever follows the first twelve. -/
theorem C51_every_text (t : Bytes) :
    (t.length < 12 → UtcTime.fromUtcTimestamp t = .err ()) ∧
    (12 ≤ t.length → (∃ c ∈ t.take 12, 0x80 ≤ c.toNat) → UtcTime.fromUtcTimestamp t = .panic) ∧
    (12 ≤ t.length → (∀ c ∈ t.take 12, c.toNat < 0x80) → UtcTime.fromUtcTimestamp t =
      .ok ⟨Time.pairAt t 0 + (if Time.pairAt t 0 < 50 then 2000 else 1900), Time.pairAt t 2, Time.pairAt t 4, Time.pairAt t 6, Time.pairAt t 8,
        Time.pairAt t 10⟩) := by
  have e0 : t = t.drop 0 := rfl
  refine ⟨fun h => by unfold UtcTime.fromUtcTimestamp; rw [if_pos h], fun h hc => ?_, fun h hc => ?_⟩
  · obtain ⟨c, hc, hb⟩ := hc
    obtain ⟨i, hi, rfl⟩ := List.getElem_of_mem hc
    have hi12 : i < 12 := by rw [List.length_take] at hi; omega
    rw [List.getElem_take] at hb
    have hg : t.getD i 0#8 = t[i]'(by omega) := by
      rw [List.getD_eq_getElem?_getD, List.getElem?_eq_getElem (by omega), Option.getD_some]
    rw [← hg] at hb
    unfold UtcTime.fromUtcTimestamp
    rw [if_neg (by omega)]
    have key : ∀ j, j + 2 ≤ t.length → (i = j ∨ i = j + 1) → strToU16 (ε := Unit) (t.drop j) = .panic := by
      intro j hj hij
      rw [two_at t j hj, if_neg]
      rintro ⟨h1, h2⟩
      rcases hij with rfl | rfl <;> omega
    have two : ∀ j, j + 2 ≤ t.length → strToU16 (ε := Unit) (t.drop j) = .panic ∨ ∃ x, strToU16 (ε := Unit) (t.drop j) = .ok x := by
      intro j hj
      rw [two_at t j hj]
      split_ifs
      · exact .inr ⟨_, rfl⟩
      · exact .inl rfl
    have k : ∀ (j : Nat) (f : Nat → Res Unit UtcTime), j + 2 ≤ t.length → (i = j ∨ i = j + 1 ∨ ∀ x, f x = .panic) →
        (strToU16 (ε := Unit) (t.drop j) >>= f) = .panic := by
      intro j f hj hf
      rcases two j hj with h | ⟨x, h⟩
      · rw [h]; rfl
      · rcases hf with hf | hf | hf
        · rw [key j hj (.inl hf)] at h; cases h
        · rw [key j hj (.inr hf)] at h; cases h
        · rw [h]; exact hf x
    conv => lhs; arg 1; rw [e0]
    refine k 0 _ (by omega) ?_
    by_cases c0 : i < 2
    · omega
    refine .inr (.inr fun _ => k 2 _ (by omega) ?_)
    by_cases c1 : i < 4
    · omega
    refine .inr (.inr fun _ => k 4 _ (by omega) ?_)
    by_cases c2 : i < 6
    · omega
    refine .inr (.inr fun _ => k 6 _ (by omega) ?_)
    by_cases c3 : i < 8
    · omega
    refine .inr (.inr fun _ => k 8 _ (by omega) ?_)
    by_cases c4 : i < 10
    · omega
    refine .inr (.inr fun _ => k 10 _ (by omega) ?_)
    omega
  · have ha : ∀ i, i < 12 → (t.getD i 0#8).toNat < 0x80 := by
      intro i hi
      rw [List.getD_eq_getElem?_getD, List.getElem?_eq_getElem (by omega), Option.getD_some]
      refine hc _ ?_
      rw [List.mem_iff_getElem]
      exact ⟨i, by rw [List.length_take]; omega, by rw [List.getElem_take]⟩
    have key : ∀ j, j + 2 ≤ 12 → strToU16 (ε := Unit) (t.drop j) = .ok (Time.pairAt t j) := by
      intro j hj
      rw [two_at t j (by omega), if_pos ⟨ha j (by omega), ha (j + 1) (by omega)⟩]
    unfold UtcTime.fromUtcTimestamp
    rw [if_neg (by omega)]
    have k0 := key 0 (by omega)
    rw [← e0] at k0
    rw [k0, key 2 (by omega), key 4 (by omega), key 6 (by omega), key 8 (by omega), key 10 (by omega)]
    simp only [Res.ok_bind]
    split_ifs <;> rfl

/-- "AB0230112233" passes for 30 February 2000: letters count as 0 and nothing checks that the date exists. -/
example : UtcTime.fromUtcTimestamp (ascii "AB0230112233") = .ok ⟨2000, 2, 30, 11, 22, 33⟩ := by decide +kernel

/-- A text with "é" in it makes the reader panic. -/
example : ∃ c ∈ ([0x32, 0x33, 0x30, 0x36, 0xc3, 0xa9, 0x31, 0x32, 0x33, 0x30, 0x35, 0x39, 0x5a] : Bytes).take 12, 0x80 ≤ c.toNat := by decide

/-- The conversion to Unix time panics exactly for years before 1970, months other than 1 to 12, and day 0; every other date is converted,
whether or not it exists. -/
theorem C51_converts_iff (t : UtcTime) :
    (∃ v, t.getUnixTimestamp (ε := Unit) = .ok v) ↔ 1970 ≤ t.year ∧ 1 ≤ t.month ∧ t.month ≤ 12 ∧ 1 ≤ t.day := by
  constructor
  · rintro ⟨v, h⟩
    have hy : 1970 ≤ t.year := by
      by_contra hy
      rw [C51_before_1970 t (by omega)] at h
      cases h
    unfold UtcTime.getUnixTimestamp at h
    simp only [Res.bind_eq_ok] at h
    obtain ⟨_, _, _, _, _, _, _, _, _, _, _, _, m, hm, d, hd, e, he, _⟩ := h
    refine ⟨hy, ?_⟩
    unfold UtcTime.sub at hm he
    split_ifs at hm with hm1
    split_ifs at he with he1
    cases hm
    refine ⟨hm1, ?_, he1⟩
    by_contra hgt
    unfold idx at hd
    rw [List.getElem?_eq_none (by simp; omega)] at hd
    cases hd
  · rintro ⟨hy, hm1, hm2, hd⟩
    obtain ⟨d, hd', _⟩ := table_eq t.year t.month hm1 hm2
    unfold UtcTime.getUnixTimestamp UtcTime.sub
    rw [if_pos (by omega : 1 ≤ t.year)]
    simp only [Res.ok_bind]
    rw [if_pos (by omega : 1968 ≤ t.year - 1)]
    simp only [Res.ok_bind]
    rw [if_pos (by omega : 1900 ≤ t.year - 1)]
    simp only [Res.ok_bind]
    rw [if_pos (by omega : 1600 ≤ t.year - 1)]
    simp only [Res.ok_bind]
    rw [if_pos (by omega : (t.year - 1 - 1900) / 100 ≤ (t.year - 1 - 1968) / 4)]
    simp only [Res.ok_bind]
    rw [if_pos (by omega : 1970 ≤ t.year)]
    simp only [Res.ok_bind]
    rw [if_pos hm1]
    simp only [Res.ok_bind, hd']
    rw [if_pos hd]
    simp only [Res.ok_bind]
    exact ⟨_, rfl⟩

/-- 31 February is converted. -/
example : ∃ v, UtcTime.getUnixTimestamp (ε := Unit) ⟨2023, 2, 31, 0, 0, 0⟩ = .ok v := (C51_converts_iff _).2 (by decide)

/-! ### C52 -/

/-- C52 for the dates satisfying `P`: a certificate valid from `a` to `b` is accepted at time `now` exactly when `a <= now <= b`, in Unix time. -/
def C52_for (P : UtcTime → Prop) : Prop :=
  ∀ (a b : UtcTime) (now : Nat), Time.Valid a.year a.month a.day a.hour a.minute a.second →
    Time.Valid b.year b.month b.day b.hour b.minute b.second → P a → P b →
    ∃ r, Validity.isValid (ε := Unit) ⟨some a, some b⟩ now = .ok r ∧
      (r = true ↔ Time.unix a.year a.month a.day a.hour a.minute a.second ≤ now ∧ now ≤ Time.unix b.year b.month b.day b.hour b.minute b.second)

/-- C52 in full. -/
def C52_statement : Prop := C52_for fun _ => True

/-- The decision in terms of the times the code computes, including absent bounds (which never exclude anything). -/
theorem C52_interval (v : Validity) (now : Nat) (lo hi : Option Nat)
    (hlo : ∀ t, v.notBefore = some t → ∃ x, t.getUnixTimestamp (ε := Unit) = .ok x ∧ lo = some x) (hlo' : v.notBefore = none → lo = none)
    (hhi : ∀ t, v.notAfter = some t → ∃ x, t.getUnixTimestamp (ε := Unit) = .ok x ∧ hi = some x) (hhi' : v.notAfter = none → hi = none) :
    ∃ r, v.isValid (ε := Unit) now = .ok r ∧ (r = true ↔ (∀ x, lo = some x → x ≤ now) ∧ (∀ x, hi = some x → now ≤ x)) := by
  unfold Validity.isValid
  cases hb : v.notBefore with
  | none =>
    simp only [Res.ok_bind, Bool.false_eq_true, if_false]
    rw [hlo' hb]
    cases ha : v.notAfter with
    | none => rw [hhi' ha]; exact ⟨true, rfl, by simp⟩
    | some t =>
      obtain ⟨x, hx, hl⟩ := hhi t ha
      rw [hl]
      simp only [hx, Res.ok_bind]
      by_cases h : now > x
      · simp [h]
      · simp [h]; omega
  | some t =>
    obtain ⟨x, hx, hl⟩ := hlo t hb
    rw [hl]
    simp only [hx, Res.ok_bind]
    by_cases h : now < x
    · simp [h]
    · simp only [h, decide_false, Bool.false_eq_true, if_false]
      cases ha : v.notAfter with
      | none => rw [hhi' ha]; exact ⟨true, rfl, by simp; omega⟩
      | some t =>
        obtain ⟨y, hy, hl⟩ := hhi t ha
        rw [hl]
        simp only [hy, Res.ok_bind]
        by_cases h2 : now > y
        · simp [h2]
        · simp [h2]; omega

/-- C52 when neither bound lies after February of a leap year. Missing: those dates (`C52_false`). -/
theorem C52_interval_partial : C52_for fun t => t.month ≤ 2 ∨ Time.isLeap t.year = false := by
  intro a b now ha hb hPa hPb
  have key : ∀ t : UtcTime, Time.Valid t.year t.month t.day t.hour t.minute t.second → (t.month ≤ 2 ∨ Time.isLeap t.year = false) →
      t.getUnixTimestamp (ε := Unit) = .ok (Time.unix t.year t.month t.day t.hour t.minute t.second) := by
    intro t hv hP
    obtain ⟨v, h1, h2⟩ := unix_eq t hv
    have hc : ¬ (3 ≤ t.month ∧ Time.isLeap t.year = true) := by
      rintro ⟨h3, h4⟩
      rcases hP with h | h
      · omega
      · rw [h] at h4; cases h4
    rw [if_neg hc] at h2
    rw [h1, h2, Nat.add_zero]
  obtain ⟨r, h1, h2⟩ := C52_interval ⟨some a, some b⟩ now (some (Time.unix a.year a.month a.day a.hour a.minute a.second))
    (some (Time.unix b.year b.month b.day b.hour b.minute b.second))
    (fun t ht => by cases ht; exact ⟨_, key a ha hPa, rfl⟩) (fun h => by cases h)
    (fun t ht => by cases ht; exact ⟨_, key b hb hPb, rfl⟩) (fun h => by cases h)
  exact ⟨r, h1, by rw [h2]; simp⟩

/-- C52 is false: a certificate valid until 1 March 2024 is refused at its last second. -/
theorem C52_false : ¬ C52_statement := by
  intro h
  obtain ⟨r, h1, h2⟩ := h ⟨2023, 1, 1, 0, 0, 0⟩ ⟨2024, 3, 1, 0, 0, 0⟩ (Time.unix 2024 3 1 0 0 0) (by decide +kernel) (by decide +kernel) trivial
    trivial
  have : Validity.isValid (ε := Unit) ⟨some ⟨2023, 1, 1, 0, 0, 0⟩, some ⟨2024, 3, 1, 0, 0, 0⟩⟩ (Time.unix 2024 3 1 0 0 0) = .ok false := by
    decide +kernel
  rw [this] at h1
  have h1 := Res.ok.inj h1
  subst h1
  revert h2
  decide +kernel

example : Validity.isValid (ε := Unit) ⟨some ⟨2023, 3, 16, 18, 3, 52⟩, some ⟨2024, 2, 15, 18, 3, 52⟩⟩ 1700000000 = .ok true ∧
    Validity.isValid (ε := Unit) ⟨some ⟨2023, 3, 16, 18, 3, 52⟩, some ⟨2024, 2, 15, 18, 3, 52⟩⟩ 1800000000 = .ok false := by decide +kernel

end ATLS
