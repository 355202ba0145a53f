import Verif.Proof.Limbs
/-
`scalarmult` equals the X25519 function of RFC 7748.
-/
namespace ATLS.XProof
open ATLS.Model.X25519 ATLS.Spec

theorem bxor_cancel {x y : Int} (hy1 : -2 ^ 63 ≤ y) (hy2 : y < 2 ^ 63) : bxor x (band (-1) (bxor x y)) = y := by
  unfold bxor band
  rw [BitVec.ofInt_toInt, BitVec.ofInt_toInt]
  have h1 : BitVec.ofInt 64 (-1) = BitVec.allOnes 64 := by decide
  rw [h1, BitVec.allOnes_and, ← BitVec.xor_assoc, BitVec.xor_self, BitVec.zero_xor]
  exact ofInt_toInt64 hy1 hy2

theorem bxor_comm (x y : Int) : bxor x y = bxor y x := by
  unfold bxor; rw [BitVec.xor_comm]

theorem bxor_zero {x y : Int} (hx1 : -2 ^ 63 ≤ x) (hx2 : x < 2 ^ 63) : bxor x (band 0 y) = x := by
  unfold bxor band
  rw [BitVec.ofInt_toInt]
  have h1 : BitVec.ofInt 64 0 = 0#64 := by decide
  rw [h1, BitVec.zero_and, BitVec.xor_zero]
  exact ofInt_toInt64 hx1 hx2

/-- All limbs are `i64` values. -/
def I64 (l : List Int) : Prop := ∀ e ∈ l, -2 ^ 63 ≤ e ∧ e < 2 ^ 63

theorem Red.i64 {l : List Int} (h : Red l) : I64 l := fun e he => by have := h.all e he; omega

theorem zip_fst : ∀ (p q : List Int), p.length = q.length → I64 p → I64 q → ∀ (f : Int → Int → Int × Int),
    (∀ x y, -2 ^ 63 ≤ x → x < 2 ^ 63 → -2 ^ 63 ≤ y → y < 2 ^ 63 → f x y = (x, y)) → 
    (List.zipWith f p q).map (·.1) = p ∧ (List.zipWith f p q).map (·.2) = q := by
  intro p
  induction p with
  | nil => intro q h _ _ f _; cases q with | nil => simp | cons a l => simp at h
  | cons x p ih =>
    intro q h hp hq f hf
    cases q with
    | nil => simp at h
    | cons y q =>
      have hx := hp x (by simp)
      have hy := hq y (by simp)
      have := ih q (by simpa using h) (fun e he => hp e (by simp [he])) (fun e he => hq e (by simp [he])) f hf
      simp [hf x y hx.1 hx.2 hy.1 hy.2, this.1, this.2]

theorem zip_snd : ∀ (p q : List Int), p.length = q.length → I64 p → I64 q → ∀ (f : Int → Int → Int × Int),
    (∀ x y, -2 ^ 63 ≤ x → x < 2 ^ 63 → -2 ^ 63 ≤ y → y < 2 ^ 63 → f x y = (y, x)) → 
    (List.zipWith f p q).map (·.1) = q ∧ (List.zipWith f p q).map (·.2) = p := by
  intro p
  induction p with
  | nil => intro q h _ _ f _; cases q with | nil => simp | cons a l => simp at h
  | cons x p ih =>
    intro q h hp hq f hf
    cases q with
    | nil => simp at h
    | cons y q =>
      have hx := hp x (by simp)
      have hy := hq y (by simp)
      have := ih q (by simpa using h) (fun e he => hp e (by simp [he])) (fun e he => hq e (by simp [he])) f hf
      simp [hf x y hx.1 hx.2 hy.1 hy.2, this.1, this.2]

theorem swap_eq {p q : List Int} (hl : p.length = q.length) (hp : I64 p) (hq : I64 q) (b : Bool) :
    swap25519 p q (b.toNat : Int) = X25519.cswap b p q := by
  unfold swap25519 X25519.cswap
  cases b with
  | false =>
    have hc : bnot (((false.toNat : ℕ) : Int) - 1) = 0 := by decide
    rw [hc]
    have := zip_fst p q hl hp hq (fun x y => let t := band 0 (bxor x y); (bxor x t, bxor y t)) (by
      intro x y hx1 hx2 hy1 hy2
      simp only []
      rw [bxor_zero hx1 hx2, bxor_zero hy1 hy2])
    simp only [Bool.false_eq_true, if_false]
    exact Prod.ext this.1 this.2
  | true =>
    have hc : bnot (((true.toNat : ℕ) : Int) - 1) = -1 := by decide
    rw [hc]
    have := zip_snd p q hl hp hq (fun x y => let t := band (-1) (bxor x y); (bxor x t, bxor y t)) (by
      intro x y hx1 hx2 hy1 hy2
      simp only []
      rw [bxor_cancel hy1 hy2, bxor_comm x y, bxor_cancel hx1 hx2])
    simp only [if_true]
    exact Prod.ext this.1 this.2

/-! ### Inversion -/

/-- The exponent `finverse` builds up. -/
def expFold (is : List Nat) (e : Nat) : Nat := is.foldl (fun e i => if i ≠ 2 ∧ i ≠ 4 then 2 * e + 1 else 2 * e) e

theorem finverse_fold {input : List Int} (hin : Red input) : ∀ (is : List Nat) (c : List Int) (e : Nat), Red c →
    val c = val input ^ e →
    ∃ r, is.foldlM (fun c i => do
        let c ← fmul c c
        if i ≠ 2 ∧ i ≠ 4 then fmul c input else .ok c) c = .ok r ∧ Red r ∧ val r = val input ^ expFold is e := by
  intro is
  induction is with
  | nil => intro c e hc hv; exact ⟨c, rfl, hc, hv⟩
  | cons i is ih =>
    intro c e hc hv
    rw [List.foldlM_cons]
    obtain ⟨s, hs1, hs2, hs3⟩ := fmul_spec hc.fac hc.fac
    rw [hs1, Res.ok_bind]
    by_cases hi : i ≠ 2 ∧ i ≠ 4
    · obtain ⟨m, hm1, hm2, hm3⟩ := fmul_spec hs2.fac hin.fac
      rw [if_pos hi, hm1, Res.ok_bind]
      obtain ⟨r, h1, h2, h3⟩ := ih m (2 * e + 1) hm2 (by rw [hm3, hs3, hv]; ring)
      refine ⟨r, h1, h2, ?_⟩
      rw [h3]; simp [expFold, hi]
    · rw [if_neg hi, Res.ok_bind]
      obtain ⟨r, h1, h2, h3⟩ := ih s (2 * e) hs2 (by rw [hs3, hv]; ring)
      refine ⟨r, h1, h2, ?_⟩
      rw [h3]; simp only [expFold, List.foldl_cons]; rw [if_neg hi]

theorem finverse_spec {c : List Int} (hc : Red c) : ∃ r, finverse c = .ok r ∧ Red r ∧ val r = val c ^ (X25519.p - 2) := by
  obtain ⟨r, h1, h2, h3⟩ := finverse_fold hc (List.range 254).reverse c 1 hc (by rw [pow_one])
  refine ⟨r, h1, h2, ?_⟩
  have he : expFold (List.range 254).reverse 1 = X25519.p - 2 := by decide +kernel
  rw [h3, he]

/-! ### Final reduction -/

theorem band_mask {v : Int} (k : Nat) (hk : k < 63) : band v (2 ^ k - 1) = v % 2 ^ k := by
  unfold band
  have h2 : (2 : Int) ^ k - 1 = ((2 ^ k - 1 : ℕ) : Int) := by
    rw [Nat.cast_sub (Nat.one_le_two_pow)]; push_cast; rfl
  have hlt : 2 ^ k < 2 ^ 63 := Nat.pow_lt_pow_right (by norm_num) hk
  have htn : (BitVec.ofInt 64 v &&& BitVec.ofInt 64 (2 ^ k - 1)).toNat = (v % 2 ^ k).toNat := by
    rw [BitVec.toNat_and, h2, BitVec.ofInt_natCast, BitVec.toNat_ofNat, Nat.mod_eq_of_lt (by omega),
      Nat.and_two_pow_sub_one_eq_mod, BitVec.toNat_ofInt]
    have h3 : (0 : Int) ≤ v % (2 ^ 64 : ℕ) := Int.emod_nonneg _ (by norm_num)
    have h4 : (0 : Int) ≤ v % 2 ^ k := Int.emod_nonneg _ (by positivity)
    zify
    rw [Nat.cast_pow, Nat.cast_ofNat] at h3
    rw [Int.toNat_of_nonneg h3, Int.toNat_of_nonneg h4]
    have hd : (2 : Int) ^ k ∣ 2 ^ 64 := pow_dvd_pow 2 (by omega)
    exact Int.emod_emod_of_dvd v hd
  have h4 : (0 : Int) ≤ v % 2 ^ k := Int.emod_nonneg _ (by positivity)
  have h5 : v % 2 ^ k < 2 ^ k := Int.emod_lt_of_pos _ (by positivity)
  have h6 : (2 : Int) ^ k < 2 ^ 63 := by exact_mod_cast hlt
  rw [BitVec.toInt_eq_toNat_of_lt (by rw [htn]; omega), htn, Int.toNat_of_nonneg h4]

/-- Canonical limbs. -/
structure Can (l : List Int) : Prop where
  len : l.length = 16
  all : ∀ e ∈ l, 0 ≤ e ∧ e < 65536

theorem Can.red {l : List Int} (h : Can l) : Red l :=
  ⟨h.len, fun e he => by have := h.all e he; omega, fun e he => h.all e (List.mem_of_mem_tail he)⟩

theorem carry_canonical {l : List Int} (h : Red l) : ∃ r, carry25519 l = .ok r ∧ Can r ∧ val r = val l := by
  obtain ⟨r0, rs, out, h1, h2, h3, h4, h5, -, -, h8⟩ := carry_spec l h.len (2 ^ 20) (by norm_num) (by norm_num)
    (fun e he => by have := h.all e he; omega)
  refine ⟨_, h1, ⟨by simp [h2], ?_⟩, h8⟩
  have hrs := ival_range rs h4
  rw [h2] at hrs
  have hl : -38 ≤ ival l ∧ ival l < 65536 ^ 16 + 38 := by
    have hlen := h.len
    cases l with
    | nil => simp at hlen
    | cons e es =>
      have he := h.all e (by simp)
      have hes := ival_range es (fun x hx => h.tail x hx)
      rw [show es.length = 15 by simpa using hlen] at hes
      simp only [ival]
      norm_num at hes ⊢
      omega
  simp only [ival] at h5
  norm_num at h5 hl hrs
  intro e he
  rcases List.mem_cons.mp he with rfl | he
  · have hout : out = -1 ∨ out = 0 ∨ out = 1 := by
      by_contra hh
      have : out ≤ -2 ∨ 2 ≤ out := by omega
      omega
    rcases hout with rfl | rfl | rfl <;> omega
  · exact h4 e he

/-- The limbs of 2^255 - 19 from limb `i` on (`n` of them). -/
def cst : Nat → Nat → Int
  | _, 0 => 0
  | i, n + 1 => (if i < 15 then 0xffff else 0x7fff) + 65536 * cst (i + 1) n

theorem ival_append : ∀ (l m : List Int), ival (l ++ m) = ival l + 65536 ^ l.length * ival m := by
  intro l m
  induction l with
  | nil => simp [ival]
  | cons e es ih => simp only [List.cons_append, ival, ih, List.length_cons, pow_succ]; ring

theorem borrow_eq {v : Int} (h1 : -65536 ≤ v) (h2 : v < 65536) : band (shr v 16) 1 = if v < 0 then 1 else 0 := by
  have : shr v 16 = if v < 0 then -1 else 0 := by
    unfold shr
    norm_num
    split <;> omega
  rw [this]
  split <;> decide

theorem subLoop_spec : ∀ (ts : List Int) (i : Nat) (prev : Int), (∀ t ∈ ts, 0 ≤ t ∧ t < 65536) →
    -65536 ≤ prev → prev < 65536 →
    ∃ ms last, subLoop prev i ts = .ok (ms ++ [last]) ∧ ms.length = ts.length ∧ (∀ m ∈ ms, 0 ≤ m ∧ m < 65536) ∧
      -65536 ≤ last ∧ last < 65536 ∧ ival (ms ++ [last]) = prev + 65536 * (ival ts - cst i ts.length) := by
  intro ts
  induction ts with
  | nil => intro i prev _ h1 h2; exact ⟨[], prev, rfl, rfl, by simp, h1, h2, by simp [ival, cst]⟩
  | cons t ts ih =>
    intro i prev ht h1 h2
    have ht0 := ht t (by simp)
    rw [subLoop]
    have hc : (0 : Int) ≤ (if i < 15 then 0xffff else 0x7fff) ∧ (if i < 15 then 0xffff else 0x7fff : Int) ≤ 0xffff := by
      split <;> omega
    obtain ⟨c, hcd⟩ : ∃ c : Int, c = if i < 15 then 0xffff else 0x7fff := ⟨_, rfl⟩
    rw [← hcd] at hc ⊢
    rw [chk64_ok (by omega) (by omega), Res.ok_bind, borrow_eq h1 h2]
    have hb : (0 : Int) ≤ (if prev < 0 then 1 else 0) ∧ (if prev < 0 then 1 else 0 : Int) ≤ 1 := by split <;> omega
    obtain ⟨bo, hbd⟩ : ∃ bo : Int, bo = if prev < 0 then 1 else 0 := ⟨_, rfl⟩
    rw [← hbd] at hb ⊢
    rw [chk64_ok (by omega) (by omega), Res.ok_bind]
    obtain ⟨ms, last, g1, g2, g3, g4, g5, g6⟩ := ih (i + 1) (t - c - bo) (fun x hx => ht x (by simp [hx])) (by omega) (by omega)
    rw [g1, Res.ok_bind]
    have hm : band prev 0xffff = prev % 65536 := by
      have := band_mask (v := prev) 16 (by norm_num)
      norm_num at this
      exact this
    rw [hm]
    refine ⟨prev % 65536 :: ms, last, rfl, by simp [g2], ?_, g4, g5, ?_⟩
    · intro m hmm
      rcases List.mem_cons.mp hmm with rfl | hmm
      · omega
      · exact g3 m hmm
    · simp only [List.cons_append, ival, g6, List.length_cons, cst, ← hcd]
      have : prev % 65536 = prev + 65536 * bo := by rw [hbd]; split <;> omega
      rw [this]; ring

theorem reduceRound_spec {t : List Int} (ht : Can t) : ∃ r, reduceRound t = .ok r ∧ Can r ∧
    ival r = if (X25519.p : Int) ≤ ival t then ival t - X25519.p else ival t := by
  have hlen := ht.len
  cases t with
  | nil => simp at hlen
  | cons t0 ts =>
    have ht0 := ht.all t0 (by simp)
    have hts : ts.length = 15 := by simpa using hlen
    unfold reduceRound
    simp only [idx, List.getElem?_cons_zero, Res.ok_bind, List.drop_succ_cons, List.drop_zero]
    rw [chk64_ok (by omega) (by omega), Res.ok_bind]
    obtain ⟨ms, last, g1, g2, g3, g4, g5, g6⟩ := subLoop_spec ts 1 (t0 - 0xffed) (fun x hx => ht.all x (by simp [hx]))
      (by omega) (by omega)
    rw [g1, Res.ok_bind]
    have h15 : (ms ++ [last])[15]? = some last := by
      rw [List.getElem?_append_right (by omega), g2, hts]; rfl
    rw [h15]
    simp only [Res.ok_bind]
    have hcst : (X25519.p : Int) = 0xffed + 65536 * cst 1 15 := by decide +kernel
    have hm : ival (ms ++ [last]) = ival (t0 :: ts) - X25519.p := by
      rw [g6, hts, hcst]; simp only [ival]; ring
    have hms := ival_range ms g3
    rw [g2, hts] at hms
    have happ := ival_append ms [last]
    rw [g2, hts] at happ
    simp only [ival, mul_zero, add_zero] at happ
    rw [borrow_eq g4 g5]
    have hi64 : I64 (t0 :: ts) := ht.red.i64
    have hi64' : I64 (ms ++ [last]) := by
      intro e he
      rcases List.mem_append.mp he with he | he
      · have := g3 e he; omega
      · rw [List.mem_singleton] at he; omega
    by_cases hneg : last < 0
    · have hlt : ¬ ((X25519.p : Int) ≤ ival (t0 :: ts)) := by
        norm_num at hms happ
        omega
      rw [if_pos hneg, if_neg hlt]
      have := swap_eq (by simp [g2]) hi64 hi64' false
      simp only [Bool.toNat_false, Nat.cast_zero] at this
      rw [show (1 : Int) - 1 = 0 by norm_num, this]
      exact ⟨_, rfl, ht, rfl⟩
    · have hge : (X25519.p : Int) ≤ ival (t0 :: ts) := by
        norm_num at hms happ
        omega
      rw [if_neg hneg, if_pos hge]
      have := swap_eq (by simp [g2]) hi64 hi64' true
      simp only [Bool.toNat_true, Nat.cast_one] at this
      rw [sub_zero, this]
      refine ⟨_, rfl, ⟨by simp [X25519.cswap, g2, hts], ?_⟩, hm⟩
      intro e he
      rcases List.mem_append.mp he with he | he
      · exact g3 e he
      · rw [List.mem_singleton] at he; omega

theorem pack_bytes : ∀ (l : List Int), (∀ e ∈ l, 0 ≤ e ∧ e < 65536) →
    (l.flatMap fun x => [BitVec.ofInt 8 x, BitVec.ofInt 8 (shr x 8)]) = leBytes (2 * l.length) (ival l).toNat := by
  intro l
  induction l with
  | nil => intro _; rfl
  | cons e es ih =>
    intro h
    have he := h e (by simp)
    have hes := ih (fun x hx => h x (by simp [hx]))
    have hv := ival_range es (fun x hx => h x (by simp [hx]))
    rw [List.flatMap_cons, hes, List.length_cons, show 2 * (es.length + 1) = (2 * es.length) + 1 + 1 by ring]
    simp only [leBytes, List.cons_append, List.nil_append, ival]
    obtain ⟨m, rfl⟩ := Int.eq_ofNat_of_zero_le he.1
    obtain ⟨v, hvv⟩ := Int.eq_ofNat_of_zero_le hv.1
    rw [hvv]
    have h1 : ((m : Int) + 65536 * (v : Int)).toNat = m + 65536 * v := by omega
    rw [h1, Int.toNat_natCast]
    have h2 : shr (m : Int) 8 = ((m / 256 : ℕ) : Int) := by unfold shr; norm_num
    rw [h2, BitVec.ofInt_natCast, BitVec.ofInt_natCast]
    have h3 : (m + 65536 * v) / 256 / 256 = v := by omega
    rw [h3]
    congr 1
    · apply BitVec.eq_of_toNat_eq
      simp only [BitVec.toNat_ofNat]
      omega
    · congr 1
      apply BitVec.eq_of_toNat_eq
      simp only [BitVec.toNat_ofNat]
      omega

theorem pack_spec {a : List Int} (ha : Red a) : pack25519 a = .ok (X25519.encodeU (val a)) := by
  obtain ⟨t1, h1, c1, v1⟩ := carry_canonical ha
  obtain ⟨t2, h2, c2, v2⟩ := carry_canonical c1.red
  obtain ⟨t3, h3, c3, v3⟩ := carry_canonical c2.red
  obtain ⟨t4, h4, c4, v4⟩ := reduceRound_spec c3
  obtain ⟨t5, h5, c5, v5⟩ := reduceRound_spec c4
  unfold pack25519
  rw [h1, Res.ok_bind, h2, Res.ok_bind, h3, Res.ok_bind, h4, Res.ok_bind, h5, Res.ok_bind, pack_bytes t5 c5.all, c5.len]
  have hr := ival_range t3 c3.all
  rw [c3.len] at hr
  have hp : (65536 : Int) ^ 16 < 3 * X25519.p := by decide +kernel
  have hp0 : (0 : Int) < X25519.p := by decide +kernel
  have hval : ival t5 = ((val a).val : Int) := by
    rw [← v1, ← v2, ← v3]
    unfold val
    rw [ZMod.val_intCast]
    have hdm := Int.emod_add_mul_ediv (ival t3) X25519.p
    have hm0 := Int.emod_nonneg (ival t3) hp0.ne'
    have hm1 := Int.emod_lt_of_pos (ival t3) hp0
    have hq : 0 ≤ ival t3 / X25519.p := Int.ediv_nonneg hr.1 hp0.le
    have hq3 : ival t3 / X25519.p < 3 := by
      rw [Int.ediv_lt_iff_lt_mul hp0]; omega
    obtain ⟨q, hqd⟩ : ∃ q, q = ival t3 / (X25519.p : Int) := ⟨_, rfl⟩
    rw [← hqd] at hdm hq hq3
    have hcase : q = 0 ∨ q = 1 ∨ q = 2 := by omega
    rcases hcase with rfl | rfl | rfl
    · rw [if_neg (by omega)] at v4
      rw [if_neg (by omega)] at v5
      omega
    · rw [if_pos (by omega)] at v4
      rw [if_neg (by omega)] at v5
      omega
    · rw [if_pos (by omega)] at v4
      rw [if_pos (by omega)] at v5
      omega
  rw [hval]
  rfl

/-! ### Unpacking and clamping -/

theorem idx_ok {α : Type} [Inhabited α] {l : List α} {i : Nat} (d : α) (h : i < l.length) : (idx l i : Res Unit α) = .ok (l.getD i d) := by
  unfold idx; rw [List.getElem?_eq_getElem h]; simp [List.getD, List.getElem?_eq_getElem h]

theorem leNat_testBit : ∀ (l : Bytes) (i : Nat), (leNat l).testBit i = (l.getD (i / 8) 0).toNat.testBit (i % 8) := by
  intro l
  induction l with
  | nil => intro i; simp [leNat]
  | cons b bs ih =>
    intro i
    have hb : b.toNat < 2 ^ 8 := b.isLt
    have : leNat (b :: bs) = 2 ^ 8 * leNat bs + b.toNat := by simp only [leNat]; ring
    rw [this, Nat.testBit_two_pow_mul_add _ hb]
    by_cases hi : i < 8
    · rw [if_pos hi, Nat.div_eq_of_lt hi, Nat.mod_eq_of_lt hi]; rfl
    · rw [if_neg hi, ih]
      have h1 : i / 8 = (i - 8) / 8 + 1 := by omega
      have h2 : i % 8 = (i - 8) % 8 := by omega
      rw [h1, h2]; rfl

theorem bit_eq (l : Bytes) (i : Nat) :
    ((l.getD (i >>> 3) 0).toNat >>> (i &&& 7)) &&& 1 = ((leNat l).testBit i).toNat := by
  have h1 : i >>> 3 = i / 8 := by rw [Nat.shiftRight_eq_div_pow]
  have h2 : i &&& 7 = i % 8 := Nat.and_two_pow_sub_one_eq_mod i 3
  rw [h1, h2, leNat_testBit, Nat.testBit, Nat.and_comm]
  obtain ⟨v, hv⟩ : ∃ v, v = (l.getD (i / 8) 0).toNat >>> (i % 8) := ⟨_, rfl⟩
  rw [← hv, Nat.one_and_eq_mod_two]
  rcases Nat.mod_two_eq_zero_or_one v with h | h <;> rw [h] <;> rfl

theorem clamp_spec {k : Bytes} (hk : k.length = 32) :
    ∃ c, clamp k = .ok c ∧ c.length = 32 ∧ leNat c = X25519.decodeScalar k := by
  unfold clamp
  rw [idx_ok 0 (by omega), Res.ok_bind, idx_ok 0 (by omega), Res.ok_bind]
  exact ⟨_, rfl, by simp [hk], rfl⟩

/-! ### The ladder -/

theorem fadd_fac {a b : List Int} (ha : Red a) (hb : Red b) : ∃ r, fadd a b = .ok r ∧ Fac r ∧ val r = val a + val b := by
  obtain ⟨r, h1, h2, h3, h4⟩ := fadd_spec ha hb
  exact ⟨r, h1, ⟨h2, h3⟩, h4⟩

theorem fsub_fac {a b : List Int} (ha : Red a) (hb : Red b) : ∃ r, fsub a b = .ok r ∧ Fac r ∧ val r = val a - val b := by
  obtain ⟨r, h1, h2, h3, h4⟩ := fsub_spec ha hb
  exact ⟨r, h1, ⟨h2, h3⟩, h4⟩

theorem constant_fac : Fac constant ∧ val constant = 121665 := by
  refine ⟨⟨by decide, by decide⟩, ?_⟩
  have : ival constant = 121665 := by decide +kernel
  unfold val; rw [this]; norm_cast

/-- The code's ladder state, swaps settled. -/
structure Settled (l : Ladder) (s : X25519.State) : Prop where
  a : Red l.a
  b : Red l.b
  c : Red l.c
  d : Red l.d
  x : (val l.a, val l.b) = X25519.cswap s.swap s.x2 s.x3
  z : (val l.c, val l.d) = X25519.cswap s.swap s.z2 s.z3

theorem cswap_xor {α : Type} (s t : Bool) (a b : α) :
    X25519.cswap (s ^^ t) a b = X25519.cswap t (X25519.cswap s a b).1 (X25519.cswap s a b).2 := by
  cases s <;> cases t <;> rfl

theorem cswap_map {α β : Type} (f : α → β) (s : Bool) (a b : α) :
    X25519.cswap s (f a) (f b) = (f (X25519.cswap s a b).1, f (X25519.cswap s a b).2) := by cases s <;> rfl

theorem ladderRound_spec {clamped : Bytes} (hc : clamped.length = 32) {x : List Int} (hx : Red x) {l : Ladder}
    {s : X25519.State} (h : Settled l s) {i : Nat} (hi : i < 255) :
    ∃ l', ladderRound clamped x l i = .ok l' ∧ Settled l' (X25519.step (leNat clamped) (val x) s i) := by
  obtain ⟨ha, hb, hcc, hd, hxs, hzs⟩ := h
  unfold ladderRound
  rw [idx_ok 0 (by rw [Nat.shiftRight_eq_div_pow]; omega), Res.ok_bind]
  simp only [bit_eq]
  obtain ⟨kt, hkt⟩ : ∃ kt, kt = (leNat clamped).testBit i := ⟨_, rfl⟩
  rw [← hkt]
  rw [swap_eq (ha.len.trans hb.len.symm) ha.i64 hb.i64, swap_eq (hcc.len.trans hd.len.symm) hcc.i64 hd.i64]
  obtain ⟨a0, ea⟩ : ∃ r, r = (X25519.cswap kt l.a l.b).1 := ⟨_, rfl⟩
  obtain ⟨b0, eb⟩ : ∃ r, r = (X25519.cswap kt l.a l.b).2 := ⟨_, rfl⟩
  obtain ⟨c0, ec⟩ : ∃ r, r = (X25519.cswap kt l.c l.d).1 := ⟨_, rfl⟩
  obtain ⟨d0, ed⟩ : ∃ r, r = (X25519.cswap kt l.c l.d).2 := ⟨_, rfl⟩
  have ra0 : Red a0 := by rw [ea]; cases kt <;> assumption
  have rb0 : Red b0 := by rw [eb]; cases kt <;> assumption
  have rc0 : Red c0 := by rw [ec]; cases kt <;> assumption
  have rd0 : Red d0 := by rw [ed]; cases kt <;> assumption
  have hX : X25519.cswap (s.swap ^^ kt) s.x2 s.x3 = (val a0, val b0) := by
    rw [cswap_xor, ← hxs, cswap_map val, ea, eb]
  have hZ : X25519.cswap (s.swap ^^ kt) s.z2 s.z3 = (val c0, val d0) := by
    rw [cswap_xor, ← hzs, cswap_map val, ec, ed]
  simp only [← ea, ← eb, ← ec, ← ed]
  obtain ⟨e1, q1, f1, v1⟩ := fadd_fac ra0 rc0
  obtain ⟨a1, q2, f2, v2⟩ := fsub_fac ra0 rc0
  obtain ⟨c1, q3, f3, v3⟩ := fadd_fac rb0 rd0
  obtain ⟨b1, q4, f4, v4⟩ := fsub_fac rb0 rd0
  obtain ⟨d1, q5, f5, v5⟩ := fmul_spec f1 f1
  obtain ⟨g1, q6, f6, v6⟩ := fmul_spec f2 f2
  obtain ⟨a2, q7, f7, v7⟩ := fmul_spec f3 f2
  obtain ⟨c2, q8, f8, v8⟩ := fmul_spec f4 f1
  obtain ⟨e2, q9, f9, v9⟩ := fadd_fac f7 f8
  obtain ⟨a3, q10, f10, v10⟩ := fsub_fac f7 f8
  obtain ⟨b2, q11, f11, v11⟩ := fmul_spec f10 f10
  obtain ⟨c3, q12, f12, v12⟩ := fsub_fac f5 f6
  obtain ⟨a4, q13, f13, v13⟩ := fmul_spec f12 constant_fac.1
  obtain ⟨a5, q14, f14, v14⟩ := fadd_fac f13 f5
  obtain ⟨c4, q15, f15, v15⟩ := fmul_spec f12 f14
  obtain ⟨a6, q16, f16, v16⟩ := fmul_spec f5.fac f6.fac
  obtain ⟨d2, q17, f17, v17⟩ := fmul_spec f11.fac hx.fac
  obtain ⟨b3, q18, f18, v18⟩ := fmul_spec f9 f9
  rw [q1, Res.ok_bind, q2, Res.ok_bind, q3, Res.ok_bind, q4, Res.ok_bind, q5, Res.ok_bind, q6, Res.ok_bind,
    q7, Res.ok_bind, q8, Res.ok_bind, q9, Res.ok_bind, q10, Res.ok_bind, q11, Res.ok_bind, q12, Res.ok_bind,
    q13, Res.ok_bind, q14, Res.ok_bind, q15, Res.ok_bind, q16, Res.ok_bind, q17, Res.ok_bind, q18, Res.ok_bind]
  rw [swap_eq (f16.len.trans f18.len.symm) f16.i64 f18.i64, swap_eq (f15.len.trans f17.len.symm) f15.i64 f17.i64]
  refine ⟨_, rfl, ?_, ?_, ?_, ?_, ?_, ?_⟩
  · cases kt <;> assumption
  · cases kt <;> assumption
  · cases kt <;> assumption
  · cases kt <;> assumption
  · have hl : (X25519.step (leNat clamped) (val x) s i).x2 = val a6 ∧
        (X25519.step (leNat clamped) (val x) s i).x3 = val b3 ∧
        (X25519.step (leNat clamped) (val x) s i).swap = kt := by
      unfold X25519.step
      simp only [← hkt, hX, hZ]
      refine ⟨?_, ?_, trivial⟩
      · rw [v16, v5, v6, v1, v2]; ring
      · rw [v18, v9, v7, v8, v1, v2, v3, v4]; ring
    rw [hl.1, hl.2.1, hl.2.2, cswap_map val]
  · have hl : (X25519.step (leNat clamped) (val x) s i).z2 = val c4 ∧
        (X25519.step (leNat clamped) (val x) s i).z3 = val d2 ∧
        (X25519.step (leNat clamped) (val x) s i).swap = kt := by
      unfold X25519.step
      simp only [← hkt, hX, hZ]
      refine ⟨?_, ?_, trivial⟩
      · rw [v15, v12, v14, v13, v12, constant_fac.2, v5, v6, v1, v2]; ring
      · rw [v17, v11, v10, v7, v8, v1, v2, v3, v4]; ring
    rw [hl.1, hl.2.1, hl.2.2, cswap_map val]

theorem ladder_fold {clamped : Bytes} (hc : clamped.length = 32) {x : List Int} (hx : Red x) :
    ∀ (is : List Nat) (l : Ladder) (s : X25519.State), (∀ i ∈ is, i < 255) → Settled l s →
    ∃ l', is.foldlM (ladderRound clamped x) l = .ok l' ∧
      Settled l' (is.foldl (X25519.step (leNat clamped) (val x)) s) := by
  intro is
  induction is with
  | nil => intro l s _ h; exact ⟨l, rfl, h⟩
  | cons i is ih =>
    intro l s hi h
    obtain ⟨l1, h1, h2⟩ := ladderRound_spec hc hx h (hi i (by simp))
    rw [List.foldlM_cons, h1, Res.ok_bind, List.foldl_cons]
    exact ih l1 _ (fun j hj => hi j (by simp [hj])) h2

/-- Byte `i` of a list as an integer. -/
def by' (u : Bytes) (i : Nat) : Int := ((u.getD i 0).toNat : Int)

theorem by'_range (u : Bytes) (i : Nat) : 0 ≤ by' u i ∧ by' u i < 256 := by
  have := (u.getD i 0).isLt
  unfold by'; omega

theorem leNat_sum : ∀ l : Bytes, (leNat l : Int) = ∑ i ∈ Finset.range l.length, by' l i * 256 ^ i := by
  intro l
  induction l with
  | nil => simp [leNat]
  | cons e es ih =>
    rw [List.length_cons, Finset.sum_range_succ', leNat]
    push_cast
    rw [ih, Finset.mul_sum, add_comm]
    congr 1
    · apply Finset.sum_congr rfl
      intro i _
      simp only [by', List.getD_cons_succ, pow_succ]; ring
    · simp [by']

theorem unpack_spec {u : Bytes} (hu : u.length = 32) : ∃ x, unpack25519 u = .ok x ∧ Can x ∧ val x = X25519.decodeU u := by
  unfold unpack25519
  have hm : ((List.range 16).mapM fun i => (do
      let lo ← idx u (2 * i)
      let hi ← idx u (2 * i + 1)
      chk64 (lo.toNat + shl hi.toNat 8) : Res Unit Int)) = .ok ((List.range 16).map fun i => by' u (2 * i) + 256 * by' u (2 * i + 1)) := by
    apply mapM_ok
    intro i hi
    rw [List.mem_range] at hi
    rw [idx_ok 0 (by omega), Res.ok_bind, idx_ok 0 (by omega), Res.ok_bind]
    have h1 := by'_range u (2 * i)
    have h2 := by'_range u (2 * i + 1)
    have hs : shl ((u.getD (2 * i + 1) 0).toNat : Int) 8 = 256 * by' u (2 * i + 1) := by
      have := shl_eq (v := by' u (2 * i + 1)) (n := 8) (by omega) (by omega)
      unfold by' at this ⊢
      omega
    rw [hs]
    exact chk64_ok (by unfold by' at *; omega) (by unfold by' at *; omega)
  rw [hm, Res.ok_bind]
  obtain ⟨out, hout⟩ : ∃ out : List Int, out = (List.range 16).map fun i => by' u (2 * i) + 256 * by' u (2 * i + 1) := ⟨_, rfl⟩
  rw [← hout]
  have hlen : out.length = 16 := by rw [hout]; simp
  have hlast : out.getD 15 0 = by' u 30 + 256 * by' u 31 := by rw [hout]; rfl
  rw [idx_getD (by omega), Res.ok_bind, hlast]
  have hmask : band (by' u 30 + 256 * by' u 31) 0x7fff = (by' u 30 + 256 * by' u 31) % 32768 := by
    have := band_mask (v := by' u 30 + 256 * by' u 31) 15 (by norm_num)
    norm_num at this
    exact this
  rw [hmask]
  refine ⟨_, rfl, ⟨by simp [hlen], ?_⟩, ?_⟩
  · intro e he
    rcases List.mem_or_eq_of_mem_set he with he | rfl
    · rw [hout, List.mem_map] at he
      obtain ⟨i, -, rfl⟩ := he
      have h1 := by'_range u (2 * i)
      have h2 := by'_range u (2 * i + 1)
      omega
    · omega
  · unfold val X25519.decodeU
    have hiv : ival (out.set 15 ((by' u 30 + 256 * by' u 31) % 32768)) =
        ((leNat (u.set 31 (u.getD 31 0 &&& 127)) : ℕ) : Int) := by
      rw [ival_set _ _ _ (by omega), hlast, hout, ival_map_range, leNat_sum, List.length_set, hu]
      have hb31 : by' (u.set 31 (u.getD 31 0 &&& 127)) 31 = by' u 31 % 128 := by
        unfold by'
        have : (u.set 31 (u.getD 31 0 &&& 127)).getD 31 0 = u.getD 31 0 &&& 127 := by
          rw [List.getD_eq_getElem?_getD, List.getElem?_set_self (by omega), Option.getD_some]
        rw [this, BitVec.toNat_and]
        have h127 : (127 : BitVec 8).toNat = 2 ^ 7 - 1 := by decide
        rw [h127, Nat.and_two_pow_sub_one_eq_mod]
        push_cast; rfl
      have hb : ∀ i < 31, by' (u.set 31 (u.getD 31 0 &&& 127)) i = by' u i := by
        intro i hi
        unfold by'
        rw [List.getD_eq_getElem?_getD, List.getElem?_set_ne (by omega), ← List.getD_eq_getElem?_getD]
      have hsum : ∑ i ∈ Finset.range 31, by' (u.set 31 (u.getD 31 0 &&& 127)) i * 256 ^ i =
          ∑ i ∈ Finset.range 31, by' u i * 256 ^ i :=
        Finset.sum_congr rfl (fun i hi => by rw [hb i (Finset.mem_range.mp hi)])
      rw [Finset.sum_range_succ (n := 31), hb31, hsum]
      have h1 := by'_range u 30
      have h2 := by'_range u 31
      have h3 : (by' u 30 + 256 * by' u 31) % 32768 = by' u 30 + 256 * (by' u 31 % 128) := by omega
      rw [h3]
      simp only [Finset.sum_range_succ, Finset.sum_range_zero]
      ring
    rw [hiv, Int.cast_natCast]

theorem one_red : Red one ∧ val one = 1 := by
  refine ⟨⟨by decide, by decide, by decide⟩, ?_⟩
  have : ival one = 1 := by decide +kernel
  unfold val; rw [this]; norm_cast

theorem zero_red : Red zero ∧ val zero = 0 := by
  refine ⟨⟨by decide, by decide, by decide⟩, ?_⟩
  have : ival zero = 0 := by decide +kernel
  unfold val; rw [this]; norm_cast

theorem scalarmult_spec {u k : Bytes} (hu : u.length = 32) (hk : k.length = 32) :
    scalarmult u k = .ok (X25519.x25519 k u) := by
  obtain ⟨c, hc1, hc2, hc3⟩ := clamp_spec hk
  obtain ⟨x, hx1, hx2, hx3⟩ := unpack_spec hu
  unfold scalarmult
  rw [hc1, Res.ok_bind, hx1, Res.ok_bind]
  obtain ⟨l, hl1, hl2⟩ := ladder_fold hc2 hx2.red (List.range 255).reverse ⟨one, x, zero, one⟩
    ⟨1, 0, val x, 1, false⟩ (by intro i hi; simpa using hi)
    ⟨one_red.1, hx2.red, zero_red.1, one_red.1, by rw [one_red.2]; rfl, by rw [one_red.2, zero_red.2]; rfl⟩
  rw [hl1, Res.ok_bind]
  obtain ⟨i, hi1, hi2, hi3⟩ := finverse_spec hl2.c
  obtain ⟨a, ha1, ha2, ha3⟩ := fmul_spec hl2.a.fac hi2.fac
  rw [hi1, Res.ok_bind, ha1, Res.ok_bind, pack_spec ha2]
  unfold X25519.x25519 X25519.ladder
  rw [← hc3, ← hx3, ha3, hi3]
  obtain ⟨s, hs⟩ : ∃ s, s = (List.range 255).reverse.foldl (X25519.step (leNat c) (val x)) ⟨1, 0, val x, 1, false⟩ := ⟨_, rfl⟩
  rw [← hs] at hl2 ⊢
  have h1 : (X25519.cswap s.swap s.x2 s.x3).1 = val l.a := by rw [← hl2.x]
  have h2 : (X25519.cswap s.swap s.z2 s.z3).1 = val l.c := by rw [← hl2.z]
  rw [← h1, ← h2]

end ATLS.XProof
