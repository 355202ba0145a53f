import Mathlib.NumberTheory.LucasPrimality
import Mathlib.Tactic.NormNum.Prime
/-
Primality of the P-256 field and group orders of 2^255 - 19 and of the order of the base point of Curve25519 by Pratt certificates.
-/
namespace ATLS.Primes

/-- Square-and-multiply modulo `m`, least significant bit first. -/
def powModAux (m : Nat) : Nat → Nat → Nat → Nat → Nat
  | 0, _, _, acc => acc
  | f + 1, b, e, acc => if e = 0 then acc else powModAux m f (b * b % m) (e / 2) (if e % 2 = 1 then acc * b % m else acc)

theorem powModAux_spec (m : Nat) : ∀ (f b e acc : Nat), e < 2 ^ f → powModAux m f b e acc ≡ acc * b ^ e [MOD m] := by
  intro f
  induction f with
  | zero =>
    intro b e acc h
    have : e = 0 := by simpa using h
    subst this
    simp [powModAux, Nat.ModEq]
  | succ f ih =>
    intro b e acc h
    rw [powModAux]
    by_cases h0 : e = 0
    · subst h0; simp [Nat.ModEq]
    rw [if_neg h0]
    refine (ih _ _ _ (by rw [pow_succ] at h; omega)).trans ?_
    have hb : (b * b % m) ^ (e / 2) ≡ (b * b) ^ (e / 2) [MOD m] := (Nat.mod_modEq _ _).pow _
    have he : (b * b) ^ (e / 2) = b ^ (2 * (e / 2)) := by rw [← pow_two, ← pow_mul]
    by_cases h1 : e % 2 = 1
    · rw [if_pos h1]
      refine ((Nat.mod_modEq _ _).mul hb).trans ?_
      rw [he, mul_assoc, ← pow_succ', show 2 * (e / 2) + 1 = e by omega]
    · rw [if_neg h1]
      refine (Nat.ModEq.rfl.mul hb).trans ?_
      rw [he, show 2 * (e / 2) = e by omega]

/-- `b ^ e % m` for `e < 2 ^ 256`. -/
def powMod (b e m : Nat) : Nat := powModAux m 256 b e 1 % m

theorem powMod_spec (b e m : Nat) (h : e < 2 ^ 256) : powMod b e m = b ^ e % m := by
  have := powModAux_spec m 256 b e 1 h
  rw [one_mul] at this
  unfold powMod
  exact this

/-- The computational part of a Pratt certificate. -/
def check (p a : Nat) (fs : List Nat) : Bool :=
  decide (2 ≤ p) && decide (p - 1 < 2 ^ 256) && (fs.foldr (· * ·) 1 == p - 1) && (powMod a (p - 1) p == 1) &&
    fs.all fun q => decide (0 < q) && !(powMod a ((p - 1) / q) p == 1)

theorem prime_of_check (p a : Nat) (fs : List Nat) (hf : ∀ q ∈ fs, q.Prime) (h : check p a fs = true) : p.Prime := by
  unfold check at h
  simp only [Bool.and_eq_true, decide_eq_true_eq, beq_iff_eq, List.all_eq_true, Bool.not_eq_true', beq_eq_false_iff_ne] at h
  obtain ⟨⟨⟨⟨h2, hlt⟩, hprod⟩, h1⟩, hall⟩ := h
  have hcast : ∀ e, e < 2 ^ 256 → ((a : ZMod p) ^ e = 1 ↔ powMod a e p = 1) := by
    intro e he
    rw [powMod_spec a e p he]
    have : (1 : ZMod p) = ((1 : ℕ) : ZMod p) := by simp
    rw [← Nat.cast_pow, this, ZMod.natCast_eq_natCast_iff']
    rw [Nat.mod_eq_of_lt (show 1 < p by omega)]
  refine lucas_primality p (a : ZMod p) ((hcast _ hlt).mpr h1) ?_
  intro q hq hdvd
  rw [← hprod] at hdvd
  have hmem : q ∈ fs := by
    have : ∀ l : List Nat, (∀ x ∈ l, x.Prime) → q ∣ l.foldr (· * ·) 1 → q ∈ l := by
      intro l
      induction l with
      | nil => intro _ hd; simp at hd; exact absurd hd hq.ne_one
      | cons x l ih =>
        intro hx hd
        rw [List.foldr_cons, hq.dvd_mul] at hd
        rcases hd with hd | hd
        · have := (Nat.prime_dvd_prime_iff_eq hq (hx x (by simp))).mp hd
          simp [this]
        · exact List.mem_cons_of_mem _ (ih (fun y hy => hx y (by simp [hy])) hd)
    exact this fs hf hdvd
  have := hall q hmem
  have hle : (p - 1) / q < 2 ^ 256 := lt_of_le_of_lt (Nat.div_le_self _ _) hlt
  rw [Ne, hcast _ hle]
  exact this.2

theorem prime_1531 : Nat.Prime 1531 := by norm_num
theorem prime_65537 : Nat.Prime 65537 := by norm_num
theorem prime_490463 : Nat.Prime 490463 := by norm_num
theorem prime_17449 : Nat.Prime 17449 := by norm_num
theorem prime_6700417 : Nat.Prime 6700417 := by
  refine prime_of_check 6700417 5 [2, 2, 2, 2, 2, 2, 2, 3, 17449] ?_ (by decide +kernel)
  simp only [List.forall_mem_cons, List.not_mem_nil, false_implies, implies_true, and_true]
  exact ⟨by norm_num, by norm_num, by norm_num, by norm_num, by norm_num, by norm_num, by norm_num, by norm_num, prime_17449⟩
theorem prime_2411 : Nat.Prime 2411 := by norm_num
theorem prime_3769 : Nat.Prime 3769 := by norm_num
theorem prime_204061199 : Nat.Prime 204061199 := by
  refine prime_of_check 204061199 11 [2, 11, 23, 107, 3769] ?_ (by decide +kernel)
  simp only [List.forall_mem_cons, List.not_mem_nil, false_implies, implies_true, and_true]
  exact ⟨by norm_num, by norm_num, by norm_num, by norm_num, prime_3769⟩
theorem prime_34282281433 : Nat.Prime 34282281433 := by
  refine prime_of_check 34282281433 17 [2, 2, 2, 3, 7, 204061199] ?_ (by decide +kernel)
  simp only [List.forall_mem_cons, List.not_mem_nil, false_implies, implies_true, and_true]
  exact ⟨by norm_num, by norm_num, by norm_num, by norm_num, by norm_num, prime_204061199⟩
theorem prime_3677 : Nat.Prime 3677 := by norm_num
theorem prime_66417393611 : Nat.Prime 66417393611 := by
  refine prime_of_check 66417393611 6 [2, 5, 53, 173, 197, 3677] ?_ (by decide +kernel)
  simp only [List.forall_mem_cons, List.not_mem_nil, false_implies, implies_true, and_true]
  exact ⟨by norm_num, by norm_num, by norm_num, by norm_num, by norm_num, prime_3677⟩
theorem prime_11290956913871 : Nat.Prime 11290956913871 := by
  refine prime_of_check 11290956913871 13 [2, 5, 17, 66417393611] ?_ (by decide +kernel)
  simp only [List.forall_mem_cons, List.not_mem_nil, false_implies, implies_true, and_true]
  exact ⟨by norm_num, by norm_num, by norm_num, prime_66417393611⟩
theorem prime_18169 : Nat.Prime 18169 := by norm_num
theorem prime_1087 : Nat.Prime 1087 := by norm_num
theorem prime_4349 : Nat.Prime 4349 := by norm_num
theorem prime_78283 : Nat.Prime 78283 := by norm_num
theorem prime_704251 : Nat.Prime 704251 := by norm_num
theorem prime_46076956964474543 : Nat.Prime 46076956964474543 := by
  refine prime_of_check 46076956964474543 5 [2, 23, 18169, 78283, 704251] ?_ (by decide +kernel)
  simp only [List.forall_mem_cons, List.not_mem_nil, false_implies, implies_true, and_true]
  exact ⟨by norm_num, by norm_num, prime_18169, prime_78283, prime_704251⟩
theorem prime_774023187263532362759620327192479577272145303 : Nat.Prime 774023187263532362759620327192479577272145303 := by
  refine prime_of_check 774023187263532362759620327192479577272145303 3 [2, 3, 3, 2411, 34282281433, 11290956913871, 46076956964474543] ?_ (by decide +kernel)
  simp only [List.forall_mem_cons, List.not_mem_nil, false_implies, implies_true, and_true]
  exact ⟨by norm_num, by norm_num, by norm_num, prime_2411, prime_34282281433, prime_11290956913871, prime_46076956964474543⟩
theorem prime_835945042244614951780389953367877943453916927241 : Nat.Prime 835945042244614951780389953367877943453916927241 := by
  refine prime_of_check 835945042244614951780389953367877943453916927241 11 [2, 2, 2, 3, 3, 3, 5, 774023187263532362759620327192479577272145303] ?_ (by decide +kernel)
  simp only [List.forall_mem_cons, List.not_mem_nil, false_implies, implies_true, and_true]
  exact ⟨by norm_num, by norm_num, by norm_num, by norm_num, by norm_num, by norm_num, by norm_num, prime_774023187263532362759620327192479577272145303⟩
theorem prime_115792089210356248762697446949407573530086143415290314195533631308867097853951 : Nat.Prime 115792089210356248762697446949407573530086143415290314195533631308867097853951 := by
  refine prime_of_check 115792089210356248762697446949407573530086143415290314195533631308867097853951 6 [2, 3, 5, 5, 17, 257, 641, 1531, 65537, 490463, 6700417, 835945042244614951780389953367877943453916927241] ?_ (by decide +kernel)
  simp only [List.forall_mem_cons, List.not_mem_nil, false_implies, implies_true, and_true]
  exact ⟨by norm_num, by norm_num, by norm_num, by norm_num, by norm_num, by norm_num, by norm_num, prime_1531, prime_65537, prime_490463, prime_6700417, prime_835945042244614951780389953367877943453916927241⟩
theorem prime_3407 : Nat.Prime 3407 := by norm_num
theorem prime_9547 : Nat.Prime 9547 := by norm_num
theorem prime_38189 : Nat.Prime 38189 := by norm_num
theorem prime_1201 : Nat.Prime 1201 := by norm_num
theorem prime_9350987 : Nat.Prime 9350987 := by
  refine prime_of_check 9350987 2 [2, 17, 229, 1201] ?_ (by decide +kernel)
  simp only [List.forall_mem_cons, List.not_mem_nil, false_implies, implies_true, and_true]
  exact ⟨by norm_num, by norm_num, by norm_num, prime_1201⟩
theorem prime_187019741 : Nat.Prime 187019741 := by
  refine prime_of_check 187019741 2 [2, 2, 5, 9350987] ?_ (by decide +kernel)
  simp only [List.forall_mem_cons, List.not_mem_nil, false_implies, implies_true, and_true]
  exact ⟨by norm_num, by norm_num, by norm_num, prime_9350987⟩
theorem prime_311245691 : Nat.Prime 311245691 := by
  refine prime_of_check 311245691 2 [2, 5, 7, 17, 29, 29, 311] ?_ (by decide +kernel)
  simp only [List.forall_mem_cons, List.not_mem_nil, false_implies, implies_true, and_true]
  exact ⟨by norm_num, by norm_num, by norm_num, by norm_num, by norm_num, by norm_num, by norm_num⟩
theorem prime_622491383 : Nat.Prime 622491383 := by
  refine prime_of_check 622491383 5 [2, 311245691] ?_ (by decide +kernel)
  simp only [List.forall_mem_cons, List.not_mem_nil, false_implies, implies_true, and_true]
  exact ⟨by norm_num, prime_311245691⟩
theorem prime_126241 : Nat.Prime 126241 := by norm_num
theorem prime_104471 : Nat.Prime 104471 := by norm_num
theorem prime_3969899 : Nat.Prime 3969899 := by
  refine prime_of_check 3969899 2 [2, 19, 104471] ?_ (by decide +kernel)
  simp only [List.forall_mem_cons, List.not_mem_nil, false_implies, implies_true, and_true]
  exact ⟨by norm_num, by norm_num, prime_104471⟩
theorem prime_1002328039319 : Nat.Prime 1002328039319 := by
  refine prime_of_check 1002328039319 19 [2, 126241, 3969899] ?_ (by decide +kernel)
  simp only [List.forall_mem_cons, List.not_mem_nil, false_implies, implies_true, and_true]
  exact ⟨by norm_num, prime_126241, prime_3969899⟩
theorem prime_1297 : Nat.Prime 1297 := by norm_num
theorem prime_16879 : Nat.Prime 16879 := by norm_num
theorem prime_1511 : Nat.Prime 1511 := by norm_num
theorem prime_3023 : Nat.Prime 3023 := by norm_num
theorem prime_155317 : Nat.Prime 155317 := by norm_num
theorem prime_191039911 : Nat.Prime 191039911 := by
  refine prime_of_check 191039911 3 [2, 3, 5, 41, 155317] ?_ (by decide +kernel)
  simp only [List.forall_mem_cons, List.not_mem_nil, false_implies, implies_true, and_true]
  exact ⟨by norm_num, by norm_num, by norm_num, by norm_num, prime_155317⟩
theorem prime_208150935158385979 : Nat.Prime 208150935158385979 := by
  refine prime_of_check 208150935158385979 2 [2, 3, 11, 43, 127, 3023, 191039911] ?_ (by decide +kernel)
  simp only [List.forall_mem_cons, List.not_mem_nil, false_implies, implies_true, and_true]
  exact ⟨by norm_num, by norm_num, by norm_num, by norm_num, by norm_num, prime_3023, prime_191039911⟩
theorem prime_2624747550333869278416773953 : Nat.Prime 2624747550333869278416773953 := by
  refine prime_of_check 2624747550333869278416773953 7 [2, 2, 2, 2, 2, 2, 3, 3, 1297, 16879, 208150935158385979] ?_ (by decide +kernel)
  simp only [List.forall_mem_cons, List.not_mem_nil, false_implies, implies_true, and_true]
  exact ⟨by norm_num, by norm_num, by norm_num, by norm_num, by norm_num, by norm_num, by norm_num, by norm_num, prime_1297, prime_16879, prime_208150935158385979⟩
theorem prime_115792089210356248762697446949407573529996955224135760342422259061068512044369 : Nat.Prime 115792089210356248762697446949407573529996955224135760342422259061068512044369 := by
  refine prime_of_check 115792089210356248762697446949407573529996955224135760342422259061068512044369 7 [2, 2, 2, 2, 3, 71, 131, 373, 3407, 17449, 38189, 187019741, 622491383, 1002328039319, 2624747550333869278416773953] ?_ (by decide +kernel)
  simp only [List.forall_mem_cons, List.not_mem_nil, false_implies, implies_true, and_true]
  exact ⟨by norm_num, by norm_num, by norm_num, by norm_num, by norm_num, by norm_num, by norm_num, by norm_num, prime_3407, prime_17449, prime_38189, prime_187019741, prime_622491383, prime_1002328039319, prime_2624747550333869278416773953⟩
theorem prime_32573 : Nat.Prime 32573 := by norm_num
theorem prime_65147 : Nat.Prime 65147 := by norm_num
theorem prime_57467 : Nat.Prime 57467 := by norm_num
theorem prime_132049 : Nat.Prime 132049 := by norm_num
theorem prime_3727 : Nat.Prime 3727 := by norm_num
theorem prime_1923133 : Nat.Prime 1923133 := by
  refine prime_of_check 1923133 2 [2, 2, 3, 43, 3727] ?_ (by decide +kernel)
  simp only [List.forall_mem_cons, List.not_mem_nil, false_implies, implies_true, and_true]
  exact ⟨by norm_num, by norm_num, by norm_num, by norm_num, prime_3727⟩
theorem prime_4153 : Nat.Prime 4153 := by norm_num
theorem prime_1723 : Nat.Prime 1723 := by norm_num
theorem prime_430751 : Nat.Prime 430751 := by norm_num
theorem prime_31757755568855353 : Nat.Prime 31757755568855353 := by
  refine prime_of_check 31757755568855353 10 [2, 2, 2, 3, 31, 107, 223, 4153, 430751] ?_ (by decide +kernel)
  simp only [List.forall_mem_cons, List.not_mem_nil, false_implies, implies_true, and_true]
  exact ⟨by norm_num, by norm_num, by norm_num, by norm_num, by norm_num, by norm_num, by norm_num, prime_4153, prime_430751⟩
theorem prime_9463 : Nat.Prime 9463 := by norm_num
theorem prime_37853 : Nat.Prime 37853 := by norm_num
theorem prime_75707 : Nat.Prime 75707 := by norm_num
theorem prime_2437 : Nat.Prime 2437 := by norm_num
theorem prime_569003 : Nat.Prime 569003 := by norm_num
theorem prime_2773320623 : Nat.Prime 2773320623 := by
  refine prime_of_check 2773320623 5 [2, 2437, 569003] ?_ (by decide +kernel)
  simp only [List.forall_mem_cons, List.not_mem_nil, false_implies, implies_true, and_true]
  exact ⟨by norm_num, prime_2437, prime_569003⟩
theorem prime_72106336199 : Nat.Prime 72106336199 := by
  refine prime_of_check 72106336199 7 [2, 13, 2773320623] ?_ (by decide +kernel)
  simp only [List.forall_mem_cons, List.not_mem_nil, false_implies, implies_true, and_true]
  exact ⟨by norm_num, by norm_num, prime_2773320623⟩
theorem prime_8574133 : Nat.Prime 8574133 := by
  refine prime_of_check 8574133 2 [2, 2, 3, 7, 103, 991] ?_ (by decide +kernel)
  simp only [List.forall_mem_cons, List.not_mem_nil, false_implies, implies_true, and_true]
  exact ⟨by norm_num, by norm_num, by norm_num, by norm_num, by norm_num, by norm_num⟩
theorem prime_1919519569386763 : Nat.Prime 1919519569386763 := by
  refine prime_of_check 1919519569386763 2 [2, 3, 7, 19, 47, 47, 127, 8574133] ?_ (by decide +kernel)
  simp only [List.forall_mem_cons, List.not_mem_nil, false_implies, implies_true, and_true]
  exact ⟨by norm_num, by norm_num, by norm_num, by norm_num, by norm_num, by norm_num, by norm_num, prime_8574133⟩
theorem prime_75445702479781427272750846543864801 : Nat.Prime 75445702479781427272750846543864801 := by
  refine prime_of_check 75445702479781427272750846543864801 7 [2, 2, 2, 2, 2, 3, 3, 5, 5, 75707, 72106336199, 1919519569386763] ?_ (by decide +kernel)
  simp only [List.forall_mem_cons, List.not_mem_nil, false_implies, implies_true, and_true]
  exact ⟨by norm_num, by norm_num, by norm_num, by norm_num, by norm_num, by norm_num, by norm_num, by norm_num, by norm_num, prime_75707, prime_72106336199, prime_1919519569386763⟩
theorem prime_74058212732561358302231226437062788676166966415465897661863160754340907 : Nat.Prime 74058212732561358302231226437062788676166966415465897661863160754340907 := by
  refine prime_of_check 74058212732561358302231226437062788676166966415465897661863160754340907 2 [2, 3, 353, 57467, 132049, 1923133, 31757755568855353, 75445702479781427272750846543864801] ?_ (by decide +kernel)
  simp only [List.forall_mem_cons, List.not_mem_nil, false_implies, implies_true, and_true]
  exact ⟨by norm_num, by norm_num, by norm_num, prime_57467, prime_132049, prime_1923133, prime_31757755568855353, prime_75445702479781427272750846543864801⟩
theorem prime_57896044618658097711785492504343953926634992332820282019728792003956564819949 : Nat.Prime 57896044618658097711785492504343953926634992332820282019728792003956564819949 := by
  refine prime_of_check 57896044618658097711785492504343953926634992332820282019728792003956564819949 2 [2, 2, 3, 65147, 74058212732561358302231226437062788676166966415465897661863160754340907] ?_ (by decide +kernel)
  simp only [List.forall_mem_cons, List.not_mem_nil, false_implies, implies_true, and_true]
  exact ⟨by norm_num, by norm_num, by norm_num, prime_65147, prime_74058212732561358302231226437062788676166966415465897661863160754340907⟩
theorem prime_34123 : Nat.Prime 34123 := by norm_num
theorem prime_409477 : Nat.Prime 409477 := by norm_num
theorem prime_14741173 : Nat.Prime 14741173 := by
  refine prime_of_check 14741173 2 [2, 2, 3, 3, 409477] ?_ (by decide +kernel)
  simp only [List.forall_mem_cons, List.not_mem_nil, false_implies, implies_true, and_true]
  exact ⟨by norm_num, by norm_num, by norm_num, by norm_num, prime_409477⟩
theorem prime_58964693 : Nat.Prime 58964693 := by
  refine prime_of_check 58964693 2 [2, 2, 14741173] ?_ (by decide +kernel)
  simp only [List.forall_mem_cons, List.not_mem_nil, false_implies, implies_true, and_true]
  exact ⟨by norm_num, by norm_num, prime_14741173⟩
theorem prime_30703 : Nat.Prime 30703 := by norm_num
theorem prime_41081 : Nat.Prime 41081 := by norm_num
theorem prime_82163 : Nat.Prime 82163 := by norm_num
theorem prime_22111 : Nat.Prime 22111 := by norm_num
theorem prime_132667 : Nat.Prime 132667 := by norm_num
theorem prime_17231 : Nat.Prime 17231 := by norm_num
theorem prime_137849 : Nat.Prime 137849 := by norm_num
theorem prime_3044861653679985063343 : Nat.Prime 3044861653679985063343 := by
  refine prime_of_check 3044861653679985063343 5 [2, 3, 11, 30703, 82163, 132667, 137849] ?_ (by decide +kernel)
  simp only [List.forall_mem_cons, List.not_mem_nil, false_implies, implies_true, and_true]
  exact ⟨by norm_num, by norm_num, by norm_num, prime_30703, prime_82163, prime_132667, prime_137849⟩
theorem prime_198211423230930754013084525763697 : Nat.Prime 198211423230930754013084525763697 := by
  refine prime_of_check 198211423230930754013084525763697 5 [2, 2, 2, 2, 3, 23, 58964693, 3044861653679985063343] ?_ (by decide +kernel)
  simp only [List.forall_mem_cons, List.not_mem_nil, false_implies, implies_true, and_true]
  exact ⟨by norm_num, by norm_num, by norm_num, by norm_num, by norm_num, by norm_num, prime_58964693, prime_3044861653679985063343⟩
theorem prime_2939 : Nat.Prime 2939 := by norm_num
theorem prime_5879 : Nat.Prime 5879 := by norm_num
theorem prime_292386187 : Nat.Prime 292386187 := by
  refine prime_of_check 292386187 2 [2, 3, 3, 3, 3, 307, 5879] ?_ (by decide +kernel)
  simp only [List.forall_mem_cons, List.not_mem_nil, false_implies, implies_true, and_true]
  exact ⟨by norm_num, by norm_num, by norm_num, by norm_num, by norm_num, by norm_num, prime_5879⟩
theorem prime_213441916511 : Nat.Prime 213441916511 := by
  refine prime_of_check 213441916511 13 [2, 5, 73, 292386187] ?_ (by decide +kernel)
  simp only [List.forall_mem_cons, List.not_mem_nil, false_implies, implies_true, and_true]
  exact ⟨by norm_num, by norm_num, by norm_num, prime_292386187⟩
theorem prime_1361 : Nat.Prime 1361 := by norm_num
theorem prime_2851 : Nat.Prime 2851 := by norm_num
theorem prime_3797 : Nat.Prime 3797 := by norm_num
theorem prime_531581 : Nat.Prime 531581 := by norm_num
theorem prime_2551 : Nat.Prime 2551 := by norm_num
theorem prime_1224481 : Nat.Prime 1224481 := by
  refine prime_of_check 1224481 13 [2, 2, 2, 2, 2, 3, 5, 2551] ?_ (by decide +kernel)
  simp only [List.forall_mem_cons, List.not_mem_nil, false_implies, implies_true, and_true]
  exact ⟨by norm_num, by norm_num, by norm_num, by norm_num, by norm_num, by norm_num, by norm_num, prime_2551⟩
theorem prime_1257559732178653 : Nat.Prime 1257559732178653 := by
  refine prime_of_check 1257559732178653 2 [2, 2, 3, 7, 23, 531581, 1224481] ?_ (by decide +kernel)
  simp only [List.forall_mem_cons, List.not_mem_nil, false_implies, implies_true, and_true]
  exact ⟨by norm_num, by norm_num, by norm_num, by norm_num, by norm_num, prime_531581, prime_1224481⟩
theorem prime_4434155615661930479 : Nat.Prime 4434155615661930479 := by
  refine prime_of_check 4434155615661930479 17 [2, 41, 43, 1257559732178653] ?_ (by decide +kernel)
  simp only [List.forall_mem_cons, List.not_mem_nil, false_implies, implies_true, and_true]
  exact ⟨by norm_num, by norm_num, by norm_num, prime_1257559732178653⟩
theorem prime_172054593956031949258510691 : Nat.Prime 172054593956031949258510691 := by
  refine prime_of_check 172054593956031949258510691 2 [2, 5, 1361, 2851, 4434155615661930479] ?_ (by decide +kernel)
  simp only [List.forall_mem_cons, List.not_mem_nil, false_implies, implies_true, and_true]
  exact ⟨by norm_num, by norm_num, prime_1361, prime_2851, prime_4434155615661930479⟩
theorem prime_19757330305831588566944191468367130476339 : Nat.Prime 19757330305831588566944191468367130476339 := by
  refine prime_of_check 19757330305831588566944191468367130476339 2 [2, 269, 213441916511, 172054593956031949258510691] ?_ (by decide +kernel)
  simp only [List.forall_mem_cons, List.not_mem_nil, false_implies, implies_true, and_true]
  exact ⟨by norm_num, by norm_num, prime_213441916511, prime_172054593956031949258510691⟩
theorem prime_276602624281642239937218680557139826668747 : Nat.Prime 276602624281642239937218680557139826668747 := by
  refine prime_of_check 276602624281642239937218680557139826668747 2 [2, 7, 19757330305831588566944191468367130476339] ?_ (by decide +kernel)
  simp only [List.forall_mem_cons, List.not_mem_nil, false_implies, implies_true, and_true]
  exact ⟨by norm_num, by norm_num, prime_19757330305831588566944191468367130476339⟩
theorem prime_7237005577332262213973186563042994240857116359379907606001950938285454250989 : Nat.Prime 7237005577332262213973186563042994240857116359379907606001950938285454250989 := by
  refine prime_of_check 7237005577332262213973186563042994240857116359379907606001950938285454250989 2 [2, 2, 3, 11, 198211423230930754013084525763697, 276602624281642239937218680557139826668747] ?_ (by decide +kernel)
  simp only [List.forall_mem_cons, List.not_mem_nil, false_implies, implies_true, and_true]
  exact ⟨by norm_num, by norm_num, by norm_num, by norm_num, prime_198211423230930754013084525763697, prime_276602624281642239937218680557139826668747⟩

/-- The order of the field of P-256 is prime. -/
theorem p256 : Nat.Prime 0xffffffff00000001000000000000000000000000ffffffffffffffffffffffff := prime_115792089210356248762697446949407573530086143415290314195533631308867097853951

/-- The order of the group of P-256 is prime. -/
theorem n256 : Nat.Prime 0xffffffff00000000ffffffffffffffffbce6faada7179e84f3b9cac2fc632551 := prime_115792089210356248762697446949407573529996955224135760342422259061068512044369

/-- 2^255 - 19 is prime. -/
theorem p25519 : Nat.Prime (2 ^ 255 - 19) := prime_57896044618658097711785492504343953926634992332820282019728792003956564819949

/-- The order of the base point of Curve25519 is prime. -/
theorem n25519 : Nat.Prime (2 ^ 252 + 27742317777372353535851937790883648493) := prime_7237005577332262213973186563042994240857116359379907606001950938285454250989

end ATLS.Primes
