import Verif.Model.Base64
import Verif.Spec.Base64
import Verif.Spec.Pem
import Verif.Proof.Bytes
import Mathlib.Tactic.IntervalCases
/-
Base64 and PEM round trips.
-/
namespace ATLS
open ATLS.Spec ATLS.Model

theorem b64Table : ∀ x : Fin 64, b64Char (BitVec.ofNat 8 x.val) ≠ '=' ∧ (b64Char (BitVec.ofNat 8 x.val)).toNat ≤ 'z'.toNat ∧
    b64Char (BitVec.ofNat 8 x.val) ∈ b64Chars ∧
    BitVec.ofNat 8 (b64Chars.idxOf (b64Char (BitVec.ofNat 8 x.val))) = BitVec.ofNat 8 x.val ∧
    (b64Char (BitVec.ofNat 8 x.val)).utf8Size = 1 ∧ b64Char (BitVec.ofNat 8 x.val) ≠ '\n' ∧
    b64Char (BitVec.ofNat 8 x.val) ≠ '-' := by
  decide +kernel

theorem b64Table' (x : Byte) (h : x.toNat < 64) : b64Char x ≠ '=' ∧ (b64Char x).toNat ≤ 'z'.toNat ∧
    b64Char x ∈ b64Chars ∧ BitVec.ofNat 8 (b64Chars.idxOf (b64Char x)) = x ∧
    (b64Char x).utf8Size = 1 ∧ b64Char x ≠ '\n' ∧ b64Char x ≠ '-' := by
  have := b64Table ⟨x.toNat, h⟩
  simpa using this

theorem b64Next_char (i : Nat) (x : Byte) (h : x.toNat < 64) (rest : List Char) :
    b64Next i (b64Char x :: rest) = .ok (x, 0, rest) := by
  obtain ⟨h1, h2, h3, h4, -, -, -⟩ := b64Table' x h
  unfold b64Next b64Rev
  simp only [h1, if_false, h2, if_true, h3, h4, Res.ok_bind]

theorem b64Next_pad (i : Nat) (rest : List Char) : b64Next i ('=' :: rest) = .ok (0#8, 1, rest) := by
  unfold b64Next; simp

theorem and63_lt (x : Byte) : (x &&& 63#8).toNat < 64 := by
  rw [BitVec.toNat_and]
  exact lt_of_le_of_lt Nat.and_le_right (by decide)

theorem b64_bits0 (a b : Byte) : ((a >>> 2 &&& 63#8) <<< 2) ||| ((((a &&& 3#8) <<< 4 ||| (b >>> 4)) &&& 63#8) >>> 4) = a := by
  ext i h
  interval_cases i <;> simp

theorem b64_bits1 (a b c : Byte) : (((a &&& 3#8) <<< 4 ||| (b >>> 4)) &&& 63#8) <<< 4 |||
    ((((b &&& 15#8) <<< 2) ||| (c >>> 6)) &&& 63#8) >>> 2 = b := by
  ext i h
  interval_cases i <;> simp

theorem b64_bits2 (b c : Byte) : ((((b &&& 15#8) <<< 2) ||| (c >>> 6)) &&& 63#8) <<< 6 ||| (c &&& 63#8) = c := by
  ext i h
  interval_cases i <;> simp

theorem b64_bits1' (a b : Byte) (h : b = 0#8) : (((a &&& 3#8) <<< 4 ||| (b >>> 4)) &&& 63#8) <<< 4 = 0#8 := by
  subst h
  ext i h
  interval_cases i <;> simp

theorem b64_bits2' (b c : Byte) (h : c = 0#8) : ((((b &&& 15#8) <<< 2) ||| (c >>> 6)) &&& 63#8) <<< 6 = 0#8 := by
  subst h
  ext i h
  interval_cases i <;> simp

theorem b64EncodeLoop_len (l : Bytes) : (b64EncodeLoop l).2 ≤ (b64EncodeLoop l).1.length ∧
    (b64EncodeLoop l).1.length = 4 * ((l.length + 2) / 3) ∧ (b64EncodeLoop l).2 = (3 - l.length % 3) % 3 := by
  fun_induction b64EncodeLoop l with
  | case1 => simp
  | case2 => simp [b64Group]
  | case3 => simp [b64Group]
  | case4 a b c rest r ih =>
    obtain ⟨h1, h2, h3⟩ := ih
    refine ⟨by simp only [List.length_append, r]; omega, ?_, ?_⟩
    · simp only [List.length_append, h2, b64Group, List.length_cons, List.length_nil, r]; omega
    · simp only [r, h3, List.length_cons]; omega

theorem b64Encode_cons3 (a b c : Byte) (rest : Bytes) :
    b64Encode (a :: b :: c :: rest) = b64Group a b c ++ b64Encode rest := by
  have h := (b64EncodeLoop_len rest).1
  unfold b64Encode
  rw [b64EncodeLoop]
  simp only [List.length_append]
  have hg : (b64Group a b c).length = 4 := rfl
  rw [List.take_append, List.take_of_length_le (by rw [hg]; omega), List.append_assoc]
  congr 3
  omega

theorem b64Encode_length (l : Bytes) : (b64Encode l).length = 4 * ((l.length + 2) / 3) := by
  obtain ⟨h1, h2, -⟩ := b64EncodeLoop_len l
  unfold b64Encode
  simp only [List.length_append, List.length_take, List.length_replicate]
  omega

/-- Every character of an encoding is in the alphabet or `=`, one UTF-8 byte, and neither a newline nor a dash. -/
theorem b64Encode_chars (l : Bytes) : ∀ c ∈ b64Encode l, c.utf8Size = 1 ∧ c ≠ '\n' ∧ c ≠ '-' := by
  have hg : ∀ a b c : Byte, ∀ ch ∈ b64Group a b c, ch.utf8Size = 1 ∧ ch ≠ '\n' ∧ ch ≠ '-' := by
    intro a b c ch hch
    simp only [b64Group, List.mem_cons, List.not_mem_nil, or_false] at hch
    rcases hch with rfl | rfl | rfl | rfl <;> exact (b64Table' _ (and63_lt _)).2.2.2.2
  have hl : ∀ l, ∀ ch ∈ (b64EncodeLoop l).1, ch.utf8Size = 1 ∧ ch ≠ '\n' ∧ ch ≠ '-' := by
    intro l
    fun_induction b64EncodeLoop l with
    | case1 => simp
    | case2 a => exact hg a 0 0
    | case3 a b => exact hg a b 0
    | case4 a b c rest r ih =>
      intro ch hch
      rw [List.mem_append] at hch
      rcases hch with h | h
      · exact hg _ _ _ _ h
      · exact ih _ h
  intro c hc
  unfold b64Encode at hc
  rw [List.mem_append] at hc
  rcases hc with h | h
  · exact hl l c (List.mem_of_mem_take h)
  · rw [(List.mem_replicate.1 h).2]; decide

theorem utf8Len_eq {s : List Char} (h : ∀ c ∈ s, c.utf8Size = 1) : utf8Len s = s.length := by
  unfold utf8Len
  induction s with
  | nil => rfl
  | cons c s ih =>
    simp only [List.map_cons, List.sum_cons, List.length_cons]
    rw [h c List.mem_cons_self, ih (fun x hx => h x (List.mem_cons_of_mem _ hx))]; omega

theorem b64DecodeLoop_encode (l : Bytes) (out : Bytes) (pad : Nat) :
    b64DecodeLoop ((l.length + 2) / 3) (b64Encode l) out pad
      = .ok (out ++ l ++ zeros (b64EncodeLoop l).2, pad + (b64EncodeLoop l).2) := by
  induction l using b64EncodeLoop.induct generalizing out pad with
  | case1 => simp [b64DecodeLoop, b64EncodeLoop]
  | case2 a =>
    have e : b64Encode [a] = [b64Char (a >>> 2 &&& 63#8), b64Char (((a &&& 3#8) <<< 4 ||| ((0#8) >>> 4)) &&& 63#8), '=', '='] := rfl
    rw [e]
    simp only [List.length_cons, List.length_nil, Nat.zero_add, Nat.reduceAdd, Nat.reduceDiv]
    rw [show (1 : Nat) = 0 + 1 from rfl, b64DecodeLoop, b64Next_char _ _ (and63_lt _), Res.ok_bind]
    simp only [b64Next_char _ _ (and63_lt _), Res.ok_bind, b64Next_pad, b64DecodeLoop]
    simp only [b64_bits0, b64EncodeLoop]
    simp only [BitVec.zero_ushiftRight, BitVec.or_zero, BitVec.zero_shiftLeft]
    have := b64_bits1' a 0#8 rfl
    simp only [BitVec.zero_ushiftRight, BitVec.or_zero] at this
    rw [this]; simp [zeros]
  | case3 a b =>
    have e : b64Encode [a, b] = [b64Char (a >>> 2 &&& 63#8), b64Char (((a &&& 3#8) <<< 4 ||| (b >>> 4)) &&& 63#8),
      b64Char (((b &&& 15#8) <<< 2 ||| ((0#8) >>> 6)) &&& 63#8), '='] := rfl
    rw [e]
    simp only [List.length_cons, List.length_nil, Nat.zero_add, Nat.reduceAdd, Nat.reduceDiv]
    rw [show (1 : Nat) = 0 + 1 from rfl, b64DecodeLoop, b64Next_char _ _ (and63_lt _), Res.ok_bind]
    simp only [b64Next_char _ _ (and63_lt _), Res.ok_bind, b64Next_pad, b64DecodeLoop]
    simp only [b64_bits0, b64_bits1, b64EncodeLoop, b64_bits2' b 0#8 rfl]
    simp [zeros]
  | case4 a b c rest ih =>
    have e : ((a :: b :: c :: rest).length + 2) / 3 = (rest.length + 2) / 3 + 1 := by simp; omega
    rw [e, b64Encode_cons3, b64DecodeLoop, b64Group]
    simp only [List.cons_append, List.nil_append, b64Next_char _ _ (and63_lt _), Res.ok_bind]
    rw [ih, b64_bits0, b64_bits1, b64_bits2, b64EncodeLoop]
    simp

theorem b64_roundtrip (l : Bytes) : b64Decode (b64Encode l) = .ok (some l) := by
  have hu : utf8Len (b64Encode l) = 4 * ((l.length + 2) / 3) := by
    rw [utf8Len_eq (fun c hc => (b64Encode_chars l c hc).1), b64Encode_length]
  unfold b64Decode
  rw [if_neg (by omega)]
  have h4 : utf8Len (b64Encode l) / 4 = (l.length + 2) / 3 := by omega
  rw [h4, b64DecodeLoop_encode]
  simp

end ATLS

namespace ATLS
open ATLS.Spec ATLS.Model

/-! ### decoding arbitrary text -/

theorem b64Alpha : ∀ c ∈ b64Chars, c ≠ '=' ∧ c.toNat ≤ 'z'.toNat ∧ b64Chars.idxOf c < 64 ∧ c.utf8Size = 1 ∧
    b64Char (BitVec.ofNat 8 (b64Chars.idxOf c)) = c := by
  decide +kernel

theorem b64Next_alpha (i : Nat) (c : Char) (h : c ∈ b64Chars) (rest : List Char) :
    b64Next i (c :: rest) = .ok (BitVec.ofNat 8 (b64Chars.idxOf c), 0, rest) := by
  obtain ⟨h1, h2, -, -⟩ := b64Alpha c h
  unfold b64Next b64Rev
  simp only [h1, if_false, h2, if_true, h, Res.ok_bind]

theorem b64_regroup (t0 t1 t2 t3 : Byte) (h0 : t0.toNat < 64) (h1 : t1.toNat < 64) (h2 : t2.toNat < 64) (h3 : t3.toNat < 64) :
    b64Group ((t0 <<< 2) ||| (t1 >>> 4)) ((t1 <<< 4) ||| (t2 >>> 2)) ((t2 <<< 6) ||| t3)
      = [b64Char t0, b64Char t1, b64Char t2, b64Char t3] := by
  have hm : ∀ t : Byte, t.toNat < 64 → t &&& 63#8 = t := by
    intro t ht
    apply BitVec.eq_of_toNat_eq
    rw [BitVec.toNat_and]
    have := Nat.and_two_pow_sub_one_eq_mod t.toNat 6
    simp only [Nat.reducePow, Nat.reduceSub] at this
    change t.toNat &&& 63 = _
    rw [this, Nat.mod_eq_of_lt ht]
  have hb : ∀ t : Byte, t.toNat < 64 → t[6] = false ∧ t[7] = false := by
    intro t ht
    have := hm t ht
    constructor
    · have h := congrArg (fun x : Byte => x[6]) this; simpa using h.symm
    · have h := congrArg (fun x : Byte => x[7]) this; simpa using h.symm
  obtain ⟨a6, a7⟩ := hb t0 h0
  obtain ⟨b6, b7⟩ := hb t1 h1
  obtain ⟨c6, c7⟩ := hb t2 h2
  obtain ⟨d6, d7⟩ := hb t3 h3
  have e0 : ((t0 <<< 2) ||| (t1 >>> 4)) >>> 2 = t0 := by
    ext i h; interval_cases i <;> simp [a6, a7, b6, b7]
  have e1 : ((((t0 <<< 2) ||| (t1 >>> 4)) &&& 3#8) <<< 4 ||| ((t1 <<< 4) ||| (t2 >>> 2)) >>> 4) = t1 := by
    ext i h; interval_cases i <;> simp [b6, b7, c6, c7]
  have e2 : ((((t1 <<< 4) ||| (t2 >>> 2)) &&& 15#8) <<< 2 ||| ((t2 <<< 6) ||| t3) >>> 6) = t2 := by
    ext i h; interval_cases i <;> simp [c6, c7, d6, d7]
  have e3 : ((t2 <<< 6) ||| t3) &&& 63#8 = t3 := by
    ext i h; interval_cases i <;> simp [d6, d7]
  unfold b64Group
  simp only [e0, e1, e2, e3, hm _ h0, hm _ h1, hm _ h2]

theorem b64DecodeLoop_alpha (k : Nat) (s : List Char) (hl : s.length = 4 * k) (hs : ∀ c ∈ s, c ∈ b64Chars)
    (out : Bytes) (pad : Nat) : ∃ b : Bytes, b64DecodeLoop k s out pad = .ok (out ++ b, pad) ∧ b64Encode b = s := by
  induction k generalizing s out pad with
  | zero =>
    have : s = [] := List.length_eq_zero_iff.1 (by omega)
    subst this
    exact ⟨[], by simp [b64DecodeLoop], rfl⟩
  | succ k ih =>
    match s, hl, hs with
    | c0 :: c1 :: c2 :: c3 :: rest, hl, hs =>
      let B : Char → Byte := fun c => BitVec.ofNat 8 (b64Chars.idxOf c)
      have m0 := hs c0 (by simp)
      have m1 := hs c1 (by simp)
      have m2 := hs c2 (by simp)
      have m3 := hs c3 (by simp)
      obtain ⟨b, hb1, hb2⟩ := ih rest (by simp at hl; omega) (fun c hc => hs c (by simp [hc]))
        (out ++ [(B c0 <<< 2) ||| (B c1 >>> 4), (B c1 <<< 4) ||| (B c2 >>> 2), (B c2 <<< 6) ||| B c3]) (pad + 0 + 0 + 0 + 0)
      refine ⟨[(B c0 <<< 2) ||| (B c1 >>> 4), (B c1 <<< 4) ||| (B c2 >>> 2), (B c2 <<< 6) ||| B c3] ++ b, ?_, ?_⟩
      · rw [b64DecodeLoop, b64Next_alpha _ _ m0, Res.ok_bind]
        simp only [b64Next_alpha _ _ m1, b64Next_alpha _ _ m2, b64Next_alpha _ _ m3, Res.ok_bind]
        rw [hb1, List.append_assoc]; rfl
      · simp only [List.cons_append, List.nil_append]
        rw [b64Encode_cons3, hb2]
        have lt : ∀ c ∈ b64Chars, (BitVec.ofNat 8 (b64Chars.idxOf c)).toNat < 64 := by
          intro c hc
          have := (b64Alpha c hc).2.2.1
          rw [BitVec.toNat_ofNat]; omega
        rw [b64_regroup _ _ _ _ (lt _ m0) (lt _ m1) (lt _ m2) (lt _ m3)]
        rw [(b64Alpha c0 m0).2.2.2.2, (b64Alpha c1 m1).2.2.2.2, (b64Alpha c2 m2).2.2.2.2, (b64Alpha c3 m3).2.2.2.2]
        rfl

theorem b64Decode_alpha (s : List Char) (hl : s.length % 4 = 0) (hs : ∀ c ∈ s, c ∈ b64Chars) :
    ∃ b : Bytes, b64Decode s = .ok (some b) ∧ b64Encode b = s := by
  have hu : utf8Len s = s.length := utf8Len_eq (fun c hc => (b64Alpha c (hs c hc)).2.2.2.1)
  obtain ⟨b, h1, h2⟩ := b64DecodeLoop_alpha (s.length / 4) s (by omega) hs [] 0
  refine ⟨b, ?_, h2⟩
  unfold b64Decode
  rw [if_neg (by omega), hu, h1]; simp

theorem b64Next_cases (i : Nat) (iter : List Char) :
    (∃ c rest, iter = c :: rest ∧ 'z'.toNat < c.toNat ∧ b64Next i iter = .panic) ∨
    (∃ t p, b64Next i iter = .ok (t, p, iter.tail) ∧ ∀ c, iter.head? = some c → c.toNat ≤ 'z'.toNat) := by
  cases iter with
  | nil =>
    right
    unfold b64Next
    by_cases h : i + 1 ≤ 2
    · simp [h]
    · have : ¬ (Char.ofNat 0 = '=') := by decide
      refine ⟨0#8, 0, ?_, by simp⟩
      simp only [h, if_false, this]
      rfl
  | cons c rest =>
    by_cases hc : c = '='
    · right
      subst hc
      exact ⟨0#8, 1, b64Next_pad _ _, by simp⟩
    · by_cases hz : c.toNat ≤ 'z'.toNat
      · right
        unfold b64Next b64Rev
        simp only [hc, if_false, hz, if_true, Res.ok_bind]
        exact ⟨_, _, rfl, by simpa using hz⟩
      · left
        refine ⟨c, rest, rfl, by omega, ?_⟩
        unfold b64Next b64Rev
        simp only [hc, if_false, hz]
        rfl

theorem b64DecodeLoop_panic (k : Nat) (s : List Char) (out : Bytes) (pad : Nat) :
    (b64DecodeLoop k s out pad = .panic ↔ ∃ c ∈ s.take (4 * k), 'z'.toNat < c.toNat) := by
  induction k generalizing s out pad with
  | zero => simp [b64DecodeLoop]
  | succ k ih =>
    have e4 : s.take (4 * (k + 1)) = s.take 4 ++ (s.drop 4).take (4 * k) := by
      rw [show 4 * (k + 1) = 4 + 4 * k by omega, List.take_add]
    rw [b64DecodeLoop, e4]
    rcases b64Next_cases 0 s with ⟨c, r, rfl, hc, hp⟩ | ⟨t0, p0, h0, hh0⟩
    · rw [hp]; simp only [Res.panic_bind, true_iff]
      exact ⟨c, by simp, hc⟩
    rw [h0, Res.ok_bind]
    simp only []
    rcases b64Next_cases 1 s.tail with ⟨c, r, hs, hc, hp⟩ | ⟨t1, p1, h1, hh1⟩
    · rw [hp]; simp only [Res.panic_bind, true_iff]
      cases s with
      | nil => simp at hs
      | cons a s => simp only [List.tail_cons] at hs; subst hs; exact ⟨c, by simp, hc⟩
    rw [h1, Res.ok_bind]
    simp only []
    rcases b64Next_cases 2 s.tail.tail with ⟨c, r, hs, hc, hp⟩ | ⟨t2, p2, h2, hh2⟩
    · rw [hp]; simp only [Res.panic_bind, true_iff]
      match s, hs with
      | a :: b :: s, hs => simp only [List.tail_cons] at hs; subst hs; exact ⟨c, by simp, hc⟩
    rw [h2, Res.ok_bind]
    simp only []
    rcases b64Next_cases 3 s.tail.tail.tail with ⟨c, r, hs, hc, hp⟩ | ⟨t3, p3, h3, hh3⟩
    · rw [hp]; simp only [Res.panic_bind, true_iff]
      match s, hs with
      | a :: b :: d :: s, hs => simp only [List.tail_cons] at hs; subst hs; exact ⟨c, by simp, hc⟩
    rw [h3, Res.ok_bind]
    simp only []
    rw [ih]
    have ed : s.tail.tail.tail.tail = s.drop 4 := by cases s with | nil => rfl | cons a s => cases s with | nil => rfl | cons a s => cases s with | nil => rfl | cons a s => cases s <;> rfl
    rw [ed]
    constructor
    · rintro ⟨c, hc, hz⟩
      exact ⟨c, List.mem_append_right _ hc, hz⟩
    · rintro ⟨c, hc, hz⟩
      rw [List.mem_append] at hc
      have hzz : 'z'.toNat = 122 := rfl
      rw [hzz] at hz
      rcases hc with hc | hc
      · exfalso
        match s, hc, hh0, hh1, hh2, hh3 with
        | [], hc, _, _, _, _ => simp at hc
        | [a], hc, hh0, _, _, _ =>
          simp at hc hh0; subst hc; omega
        | [a, b], hc, hh0, hh1, _, _ =>
          simp at hc hh0 hh1; rcases hc with rfl | rfl <;> omega
        | [a, b, d], hc, hh0, hh1, hh2, _ =>
          simp at hc hh0 hh1 hh2; rcases hc with rfl | rfl | rfl <;> omega
        | a :: b :: d :: e :: s, hc, hh0, hh1, hh2, hh3 =>
          simp at hc hh0 hh1 hh2 hh3; rcases hc with rfl | rfl | rfl | rfl <;> omega
      · exact ⟨c, hc, hz⟩

theorem length_le_utf8Len (s : List Char) : s.length ≤ utf8Len s := by
  unfold utf8Len
  induction s with
  | nil => simp
  | cons c s ih =>
    have := Char.utf8Size_pos c
    simp only [List.map_cons, List.sum_cons, List.length_cons]; omega

theorem b64Decode_panic_iff (s : List Char) :
    b64Decode s = .panic ↔ utf8Len s % 4 = 0 ∧ ∃ c ∈ s, 'z'.toNat < c.toNat := by
  unfold b64Decode
  by_cases h : utf8Len s % 4 = 0
  · rw [if_neg (by omega)]
    have hp := b64DecodeLoop_panic (utf8Len s / 4) s [] 0
    have hl := length_le_utf8Len s
    rw [List.take_of_length_le (by omega)] at hp
    rw [← hp]
    cases hd : b64DecodeLoop (utf8Len s / 4) s [] 0 with
    | ok a => simp
    | err e => exact nomatch e
    | panic => simp [h]
  · rw [if_pos h]; simp [h]

/-! ### PEM -/

theorem splitLines_append (l rest : List Char) (h : '\n' ∉ l) :
    splitLines (l ++ '\n' :: rest) = l :: splitLines rest := by
  induction l with
  | nil => simp [splitLines]
  | cons c l ih =>
    simp only [List.mem_cons, not_or] at h
    rw [List.cons_append, splitLines, if_neg (fun hc => h.1 hc.symm), ih h.2]

theorem splitLines_ne_nil (s : List Char) : splitLines s ≠ [] := by
  cases s with
  | nil => simp [splitLines]
  | cons c cs => unfold splitLines; split; · simp
                 · split <;> simp

theorem splitLines_flat (ls : List (List Char)) (rest : List Char) (h : ∀ l ∈ ls, '\n' ∉ l) :
    splitLines (ls.flatMap (fun l => l ++ ['\n']) ++ rest) = ls ++ splitLines rest := by
  induction ls with
  | nil => rfl
  | cons l ls ih =>
    rw [List.flatMap_cons, List.append_assoc, List.append_assoc]
    change splitLines (l ++ '\n' :: _) = _
    rw [splitLines_append _ _ (h l List.mem_cons_self)]
    exact congrArg (l :: ·) (ih (fun x hx => h x (List.mem_cons_of_mem _ hx)))

theorem pemLines_append (s : PemSt) (a b : List (List Char)) :
    pemLines s (a ++ b) = (pemLines s a >>= fun s => pemLines s b) := by
  induction a generalizing s with
  | nil => rfl
  | cons l ls ih =>
    simp only [List.cons_append, pemLines]
    cases pemLine s l with
    | ok s' => simp [ih]
    | err e => rfl
    | panic => rfl

theorem pemLines_content (s : PemSt) (h : s.state = .inContent) (ls : List (List Char))
    (hl : ∀ l ∈ ls, startsWith l "-----END".toList = false) :
    pemLines s ls = .ok { s with cur := s.cur ++ ls.flatten } := by
  induction ls generalizing s with
  | nil => simp [pemLines]
  | cons l ls ih =>
    rw [pemLines, pemLine]
    simp only [h, hl l List.mem_cons_self, Bool.false_eq_true, if_false, Res.ok_bind]
    rw [ih _ rfl (fun x hx => hl x (List.mem_cons_of_mem _ hx))]
    simp

theorem pemLines_junk (s : PemSt) (h : s.state ≠ .inContent) (ls : List (List Char))
    (hl : ∀ l ∈ ls, startsWith l "-----BEGIN".toList = false) : pemLines s ls = .ok s := by
  induction ls with
  | nil => rfl
  | cons l ls ih =>
    have : pemLine s l = .ok s := by
      unfold pemLine
      have := hl l List.mem_cons_self
      cases hs : s.state <;> simp_all
    rw [pemLines, this, Res.ok_bind]
    exact ih (fun x hx => hl x (List.mem_cons_of_mem _ hx))

theorem isPrefixOf_of_isPrefix {a b : List Char} (h : a <+: b) : startsWith b a = true := by
  unfold startsWith
  exact List.isPrefixOf_iff_prefix.2 h

theorem pemBlock_step (s : PemSt) (h : s.state ≠ .inContent) (hc : s.cur = []) (b : PemBlock) (hb : b.WellFormed)
    (hp : b.lines.flatten = b64Encode b.payload) :
    ∃ s', pemLines s b.renderLines = .ok s' ∧ s'.state = .fin ∧ s'.cur = [] ∧
      s'.content = (b.title, b.payload) :: s.content := by
  obtain ⟨hj, ht, hn⟩ := hb
  have hlines : ∀ l ∈ b.lines, startsWith l "-----END".toList = false := by
    intro l hl
    by_contra hcon
    have hcon : startsWith l "-----END".toList = true := by simpa using hcon
    have hpre := List.isPrefixOf_iff_prefix.1 hcon
    have : '-' ∈ l := hpre.subset (by decide)
    have : '-' ∈ b.lines.flatten := List.mem_flatten.2 ⟨l, hl, this⟩
    rw [hp] at this
    exact (b64Encode_chars _ _ this).2.2 rfl
  have hbeg : pemLine s ("-----BEGIN ".toList ++ b.title ++ "-----".toList)
      = .ok { s with title := b.title, state := .inContent } := by
    have h1 : startsWith ("-----BEGIN ".toList ++ b.title ++ "-----".toList) "-----BEGIN".toList = true := by
      apply isPrefixOf_of_isPrefix
      rw [List.append_assoc]
      exact ⟨' ' :: (b.title ++ "-----".toList), by simp⟩
    have hl1 : "-----BEGIN ".toList.length = 11 := by decide
    have hl2 : "-----".toList.length = 5 := by decide
    have hlen : ("-----BEGIN ".toList ++ b.title ++ "-----".toList).length - 5 = 11 + b.title.length := by
      simp only [List.length_append, hl1, hl2]; omega
    unfold pemLine
    rw [hlen]
    have ht : ((("-----BEGIN ".toList ++ b.title ++ "-----".toList).take (11 + b.title.length)).drop 11) = b.title := by
      rw [List.take_left' (by simp only [List.length_append, hl1]), List.drop_left' hl1]
    cases hs : s.state with
    | inContent => exact absurd hs h
    | start => simp only [h1, if_true, ht, Nat.le_add_right]
    | fin => simp only [h1, if_true, ht, Nat.le_add_right]
  have hend : startsWith ("-----END ".toList ++ b.title ++ "-----".toList) "-----END".toList = true := by
    apply isPrefixOf_of_isPrefix
    rw [List.append_assoc]
    exact ⟨' ' :: (b.title ++ "-----".toList), by simp⟩
  unfold PemBlock.renderLines
  rw [List.append_assoc, List.append_assoc, pemLines_append, pemLines_junk s h _ hj, Res.ok_bind]
  rw [List.singleton_append, pemLines, hbeg, Res.ok_bind, pemLines_append, pemLines_content _ rfl _ hlines, Res.ok_bind]
  rw [pemLines, pemLine]
  simp only [hend, if_true, hc, List.nil_append, hp, b64_roundtrip, Res.ok_bind, pemLines]
  exact ⟨_, rfl, rfl, rfl, rfl⟩

theorem pemBlocks_fold (bs : List PemBlock) (s : PemSt) (h : s.state ≠ .inContent) (hc : s.cur = [])
    (hb : ∀ b ∈ bs, b.WellFormed ∧ b.lines.flatten = b64Encode b.payload) :
    ∃ s', pemLines s (bs.flatMap PemBlock.renderLines) = .ok s' ∧ s'.state ≠ .inContent ∧ (bs ≠ [] → s'.state = .fin) ∧
      s'.content = (bs.map fun b => (b.title, b.payload)).reverse ++ s.content := by
  induction bs generalizing s with
  | nil => exact ⟨s, rfl, h, by simp, by simp⟩
  | cons b bs ih =>
    obtain ⟨s1, e1, f1, c1, k1⟩ := pemBlock_step s h hc b (hb b List.mem_cons_self).1 (hb b List.mem_cons_self).2
    obtain ⟨s2, e2, f2, g2, k2⟩ := ih s1 (by simp [f1]) c1 (fun x hx => hb x (List.mem_cons_of_mem _ hx))
    refine ⟨s2, ?_, f2, ?_, ?_⟩
    · rw [List.flatMap_cons, pemLines_append, e1, Res.ok_bind, e2]
    · intro _
      by_cases hbs : bs = []
      · subst hbs
        simp only [List.flatMap_nil, pemLines, Res.ok.injEq] at e2
        rw [← e2]; exact f1
      · exact g2 hbs
    · rw [k2, k1]; simp

theorem pem_roundtrip (bs : List PemBlock) (hne : bs ≠ []) (tail : List (List Char))
    (htail : ∀ l ∈ tail, '\n' ∉ l ∧ startsWith l "-----BEGIN".toList = false)
    (hb : ∀ b ∈ bs, b.WellFormed ∧ b.lines.flatten = b64Encode b.payload) :
    pemContent ((bs.flatMap PemBlock.renderLines ++ tail).flatMap (fun l => l ++ ['\n']))
      = .ok (bs.map fun b => (b.title, b.payload)).reverse := by
  have hnl : ∀ l ∈ bs.flatMap PemBlock.renderLines ++ tail, '\n' ∉ l := by
    intro l hl
    rw [List.mem_append] at hl
    rcases hl with hl | hl
    · obtain ⟨b, hbm, hl⟩ := List.mem_flatMap.1 hl
      obtain ⟨⟨hj, hjn, htn⟩, hp⟩ := hb b hbm
      unfold PemBlock.renderLines at hl
      simp only [List.mem_append, List.mem_singleton] at hl
      rcases hl with ((hl | hl) | hl) | hl
      · exact hjn l hl
      · subst hl
        simp only [List.mem_append, not_or]
        exact ⟨⟨by decide, htn⟩, by decide⟩
      · intro hmem
        have : '\n' ∈ b.lines.flatten := List.mem_flatten.2 ⟨l, hl, hmem⟩
        rw [hp] at this
        exact (b64Encode_chars _ _ this).2.1 rfl
      · subst hl
        simp only [List.mem_append, not_or]
        exact ⟨⟨by decide, htn⟩, by decide⟩
    · exact (htail l hl).1
  obtain ⟨s', e, hs1, hs2, hs3⟩ := pemBlocks_fold bs { content := [], state := .start, title := [], cur := [] }
    (by simp) rfl hb
  unfold pemContent
  have hsp := splitLines_flat _ [] hnl
  rw [List.append_nil] at hsp
  rw [hsp, List.append_assoc, pemLines_append, e, Res.ok_bind, pemLines_junk s' hs1, Res.ok_bind, if_pos (hs2 hne), hs3]
  · simp
  · intro l hl
    rw [List.mem_append] at hl
    rcases hl with hl | hl
    · exact (htail l hl).2
    · simp only [splitLines, List.mem_singleton] at hl
      subst hl; decide

end ATLS

namespace ATLS
open ATLS.Spec ATLS.Model

theorem alphabet_eq : Spec.Base64.alphabet = b64Chars := by decide +kernel

theorem cat3_get (a b c : Byte) (i : Nat) (h : i < 24) :
   (a ++ b ++ c : BitVec 24)[i]'h = if i < 8 then c.getLsbD i else if i < 16 then b.getLsbD (i-8) else a.getLsbD (i-16) := by
  have := BitVec.getElem_append (x := a ++ b) (y := c) (i := i) (by omega)
  refine this.trans ?_
  split
  · rw [BitVec.getLsbD_eq_getElem]
  · rename_i h8
    have := BitVec.getElem_append (x := a) (y := b) (i := i-8) (by omega)
    refine this.trans ?_
    by_cases h16 : i < 16
    · simp [h16, show i - 8 < 8 by omega]
    · simp [h16, show ¬ i - 8 < 8 by omega, show i - 8 - 8 = i-16 by omega]
      rw [BitVec.getLsbD_eq_getElem]

theorem b64Group_spec (a b c : Byte) : b64Group a b c =
    [Spec.Base64.digit (a ++ b ++ c) 0, Spec.Base64.digit (a ++ b ++ c) 1, Spec.Base64.digit (a ++ b ++ c) 2,
     Spec.Base64.digit (a ++ b ++ c) 3] := by
  have key : ∀ (x : Byte) (y : BitVec 6), x = y.setWidth 8 → b64Char x = Spec.Base64.alphabet.getD y.toNat '=' := by
    intro x y h
    unfold b64Char
    rw [alphabet_eq, h, BitVec.toNat_setWidth, Nat.mod_eq_of_lt (by have := y.isLt; omega)]
  unfold b64Group Spec.Base64.digit
  refine congr (congrArg _ (key _ _ ?_)) (congr (congrArg _ (key _ _ ?_)) (congr (congrArg _ (key _ _ ?_))
    (congrArg (fun x => [x]) (key _ _ ?_))))
  all_goals
    ext i h
    interval_cases i <;> simp [cat3_get]

theorem b64Encode_eq_spec (l : Bytes) : b64Encode l = Spec.Base64.encode l := by
  fun_induction Spec.Base64.encode l with
  | case1 => rfl
  | case2 a =>
    have h := b64Group_spec a 0 0
    have e : ((a ++ (0 : Byte) ++ (0 : Byte) : BitVec 24)) = (a ++ 0#16 : BitVec 24) := by
      apply BitVec.eq_of_toNat_eq
      rw [BitVec.toNat_append, BitVec.toNat_append, BitVec.toNat_append]
      simp only [Nat.shiftLeft_eq]
      simp; omega
    rw [e] at h
    simp only [b64Encode, b64EncodeLoop, h]; simp
  | case3 a b =>
    have h := b64Group_spec a b 0
    simp only [b64Encode, b64EncodeLoop, h]; simp
  | case4 a b c rest ih => rw [b64Encode_cons3, ih, b64Group_spec]

end ATLS
