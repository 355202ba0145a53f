import Verif.Model.Gcm
import Verif.Spec.Gcm
import Verif.Proof.Aes
import Verif.Proof.Chunks
/-
AES-GCM: the model computes SP 800-38D GCM for 96-bit IVs.
-/
namespace ATLS.GcmProof
open ATLS ATLS.Model ATLS.Spec ATLS.Gf

/-! ### Words and bytes -/

theorem u128ToBytesBe_eq (v : BitVec 128) : u128ToBytesBe v = Spec.Gcm.ofBlock v := by
  unfold u128ToBytesBe Spec.Gcm.ofBlock
  simp only [show List.range 16 = [0, 1, 2, 3, 4, 5, 6, 7, 8, 9, 10, 11, 12, 13, 14, 15] from rfl, List.map_cons, List.map_nil, beBytes,
    List.cons.injEq, and_true]
  refine ⟨?_, ?_, ?_, ?_, ?_, ?_, ?_, ?_, ?_, ?_, ?_, ?_, ?_, ?_, ?_, ?_⟩ <;>
    (apply BitVec.eq_of_toNat_eq
     simp only [BitVec.toNat_setWidth, BitVec.toNat_ushiftRight, Nat.shiftRight_eq_div_pow, BitVec.toNat_ofNat])

@[simp] theorem u128ToBytesBe_length (v : BitVec 128) : (u128ToBytesBe v).length = 16 := by simp [u128ToBytesBe]

theorem toU128Be_eq (l : Bytes) (h : l.length ≤ 16) : toU128Be l = Spec.Gcm.toBlock (l ++ zeros (16 - l.length)) := by
  have key : ∀ (l : Bytes) (k : Nat) (a : Nat), k + l.length ≤ 16 →
      (l.zipIdx k).foldl (fun (res : BitVec 128) (p : Byte × Nat) => res + (p.1.setWidth 128) <<< (15 * 8 - p.2 * 8)) (BitVec.ofNat 128 a)
        = BitVec.ofNat 128 (a + beNat l * 256 ^ (16 - k - l.length)) := by
    intro l
    induction l with
    | nil => intro k a _; simp
    | cons b l ih =>
      intro k a hk
      simp only [List.length_cons] at hk
      rw [List.zipIdx_cons, List.foldl_cons]
      have e : BitVec.ofNat 128 a + (b.setWidth 128) <<< (15 * 8 - k * 8) = BitVec.ofNat 128 (a + b.toNat * 256 ^ (15 - k)) := by
        apply BitVec.eq_of_toNat_eq
        rw [BitVec.toNat_add, BitVec.toNat_shiftLeft, BitVec.toNat_setWidth, BitVec.toNat_ofNat, BitVec.toNat_ofNat,
          Nat.shiftLeft_eq, show 15 * 8 - k * 8 = 8 * (15 - k) from by omega, Nat.pow_mul]
        have hb : b.toNat % 2 ^ 128 = b.toNat := Nat.mod_eq_of_lt (lt_of_lt_of_le b.isLt (by decide))
        rw [hb]
        simp [Nat.add_mod]
      simp only [] at e ⊢
      rw [e, ih (k + 1) _ (by omega), beNat_cons]
      congr 1
      rw [Nat.add_assoc, Nat.add_mul, Nat.mul_assoc, ← Nat.pow_add, List.length_cons]
      have e1 : 15 - k = l.length + (16 - (k + 1) - l.length) := by omega
      have e2 : 16 - k - (l.length + 1) = 16 - (k + 1) - l.length := by omega
      rw [e2, ← e1]
  unfold toU128Be Spec.Gcm.toBlock
  rw [List.take_of_length_le h]
  rw [show (0#128) = BitVec.ofNat 128 0 from rfl, key l 0 0 (by omega), beNat_append]
  congr 1; simp

theorem ofBlock_toBlock (b : Bytes) (h : b.length = 16) : Spec.Gcm.ofBlock (Spec.Gcm.toBlock b) = b := by
  unfold Spec.Gcm.ofBlock Spec.Gcm.toBlock
  have := beNat_lt b
  rw [h] at this
  rw [BitVec.toNat_ofNat, Nat.mod_eq_of_lt (lt_of_lt_of_le this (by decide)), ← h, beBytes_beNat]

theorem toBlock_ofBlock (x : BitVec 128) : Spec.Gcm.toBlock (Spec.Gcm.ofBlock x) = x := by
  unfold Spec.Gcm.ofBlock Spec.Gcm.toBlock
  rw [beNat_beBytes]
  apply BitVec.eq_of_toNat_eq
  rw [BitVec.toNat_ofNat]
  have := x.isLt
  rw [Nat.mod_eq_of_lt (b := 256 ^ 16) (lt_of_lt_of_le this (by decide)), Nat.mod_eq_of_lt this]

theorem toU128Be_bytes (x : BitVec 128) : toU128Be (u128ToBytesBe x) = x := by
  rw [toU128Be_eq _ (by simp), u128ToBytesBe_length, show zeros (16 - 16) = [] from rfl, List.append_nil, u128ToBytesBe_eq,
    toBlock_ofBlock]

theorem bytes_toU128Be (l : Bytes) (h : l.length ≤ 16) : u128ToBytesBe (toU128Be l) = l ++ zeros (16 - l.length) := by
  rw [toU128Be_eq l h, u128ToBytesBe_eq, ofBlock_toBlock]; simp [zeros]; omega

theorem bytes_xor (a b : BitVec 128) : u128ToBytesBe (a ^^^ b) = xorBytes (u128ToBytesBe a) (u128ToBytesBe b) := by
  apply List.ext_getElem (by simp [xorBytes])
  intro i h1 h2
  simp [u128ToBytesBe, xorBytes, BitVec.ushiftRight_xor_distrib, BitVec.setWidth_xor]

theorem xorBytes_length (a b : Bytes) : (xorBytes a b).length = min a.length b.length := by simp [xorBytes]

theorem bytes_shr_drop (x : BitVec 128) (k : Nat) : (u128ToBytesBe (x >>> (k * 8))).drop k = (u128ToBytesBe x).take (16 - k) := by
  apply List.ext_getElem (by simp)
  intro i h1 h2
  simp at h1 h2
  simp only [u128ToBytesBe, List.getElem_drop, List.getElem_take, List.getElem_map, List.getElem_range]
  rw [← BitVec.shiftRight_add]
  congr 2; omega

theorem bytes_shl_shr (x : BitVec 128) (k : Nat) (hk : k ≤ 16) :
    u128ToBytesBe ((x >>> (k * 8)) <<< (k * 8)) = (u128ToBytesBe x).take (16 - k) ++ zeros k := by
  apply List.ext_getElem (by simp [zeros]; omega)
  intro i h1 h2
  simp only [u128ToBytesBe_length] at h1
  rw [List.getElem_append]
  split
  · rename_i h3
    simp only [List.length_take, u128ToBytesBe_length] at h3
    simp only [u128ToBytesBe, List.getElem_take, List.getElem_map, List.getElem_range]
    ext j hj
    simp only [BitVec.getElem_setWidth, BitVec.getLsbD_ushiftRight, BitVec.getLsbD_shiftLeft]
    have : ¬ (15 * 8 - i * 8 + j < k * 8) := by omega
    simp only [this, decide_false, Bool.not_false, Bool.and_true]
    have h5 : 15 * 8 - i * 8 + j < 128 := by omega
    simp only [h5, decide_true, Bool.true_and]
    congr 1; omega
  · rename_i h3
    simp only [List.length_take, u128ToBytesBe_length] at h3
    simp only [u128ToBytesBe, List.getElem_map, List.getElem_range, zeros, List.getElem_replicate]
    ext j hj
    simp only [BitVec.getElem_setWidth, BitVec.getLsbD_ushiftRight, BitVec.getLsbD_shiftLeft, BitVec.getElem_zero]
    have : (15 * 8 - i * 8 + j < k * 8) := by omega
    simp [this]

/-! ### The field product -/

def R128 : BitVec 128 := 0x87#128

theorem and_one_ne (b : BitVec 128) : (b &&& 1#128 ≠ 0#128) ↔ b.getLsbD 0 = true := by
  constructor
  · intro h
    by_contra hc
    apply h
    ext i hi
    simp only [BitVec.getElem_and, BitVec.getElem_zero, BitVec.getElem_one]
    by_cases h0 : i = 0
    · subst h0; rw [← BitVec.getLsbD_eq_getElem]; simp only [Bool.not_eq_true] at hc; rw [hc]; rfl
    · simp [h0]
  · intro h hc
    have := congrArg (fun x => x.getLsbD 0) hc
    simp only [BitVec.getLsbD_and, h] at this
    revert this; decide

theorem and_top_ne (a : BitVec 128) : (a &&& 0x80000000000000000000000000000000#128 ≠ 0#128) ↔ a.msb = true := by
  have e : (0x80000000000000000000000000000000#128) = BitVec.twoPow 128 127 := by decide +kernel
  rw [e, BitVec.msb_eq_getLsbD_last]
  constructor
  · intro h
    by_contra hc
    apply h
    ext i hi
    simp only [BitVec.getElem_and, BitVec.getElem_zero, BitVec.getElem_twoPow]
    by_cases h0 : i = 127
    · subst h0; rw [← BitVec.getLsbD_eq_getElem]; simp only [Bool.not_eq_true] at hc; rw [show (128 - 1) = 127 from rfl] at hc; rw [hc]; rfl
    · simp; intro _; omega
  · intro h hc
    have := congrArg (fun x => x.getLsbD 127) hc
    simp only [BitVec.getLsbD_and, BitVec.getLsbD_twoPow, BitVec.getLsbD_zero] at this
    rw [show (128 - 1) = 127 from rfl] at h
    rw [h] at this
    simp at this

theorem gmultStep_eq : Model.Gcm.gmultStep = loopStep R128 := by
  funext ⟨a, b, p⟩
  unfold Model.Gcm.gmultStep loopStep xt R128
  simp only []
  refine Prod.ext ?_ (Prod.ext rfl ?_)
  · simp only []
    by_cases h : a.msb = true
    · rw [if_pos ((and_top_ne a).2 h), if_pos h]
    · rw [if_neg (fun hh => h ((and_top_ne a).1 hh)), if_neg h]
  · simp only []
    by_cases h : b.getLsbD 0 = true
    · rw [if_pos ((and_one_ne b).2 h), if_pos h]
    · rw [if_neg (fun hh => h ((and_one_ne b).1 hh)), if_neg h]

theorem reverse_xor (a b : BitVec 128) : (a ^^^ b).reverse = a.reverse ^^^ b.reverse := by
  ext i h
  simp [BitVec.getElem_reverse, BitVec.getMsbD_xor]

theorem reverse_reverse' (a : BitVec 128) : a.reverse.reverse = a := by
  simp

theorem reverse_zero' : (0#128).reverse = 0#128 := by decide +kernel

theorem xt_reverse (V : BitVec 128) :
    (xt R128 V.reverse).reverse = if V.getLsbD 0 then (V >>> 1) ^^^ (0xe1#128 <<< 120) else V >>> 1 := by
  have hm : V.reverse.msb = V.getLsbD 0 := by
    rw [BitVec.msb_eq_getLsbD_last, BitVec.getLsbD_reverse, BitVec.getMsbD_eq_getLsbD]; simp
  have hs : (V.reverse <<< 1).reverse = V >>> 1 := by
    ext i h
    rw [BitVec.getElem_reverse, BitVec.getMsbD_eq_getLsbD, BitVec.getLsbD_shiftLeft, BitVec.getLsbD_reverse, BitVec.getMsbD_eq_getLsbD,
      BitVec.getElem_ushiftRight]
    have h1 : 128 - 1 - i < 128 := by omega
    simp only [h, h1, decide_true, Bool.true_and]
    by_cases h2 : 128 - 1 - i < 1
    · have : i = 127 := by omega
      subst this; simp
    · simp only [h2, decide_false, Bool.not_false, Bool.true_and]
      have h3 : 128 - 1 - i - 1 < 128 := by omega
      simp only [h3, decide_true, Bool.true_and]
      congr 1; omega
  have hr : R128.reverse = 0xe1#128 <<< 120 := by decide +kernel
  unfold xt
  rw [hm]
  cases V.getLsbD 0
  · simpa using hs
  · simp only [if_true]; rw [reverse_xor, hs, hr]

theorem mulState_eq (X Y : BitVec 128) (i : Nat) (hi : i ≤ 128) :
    Spec.Gcm.mulState X Y i = ((S R128 X.reverse Y.reverse i).reverse, (xpow R128 Y.reverse i).reverse) := by
  induction i with
  | zero => simp only [Spec.Gcm.mulState, S, xpow, reverse_zero', reverse_reverse']
  | succ i ih =>
    rw [Spec.Gcm.mulState, ih (by omega)]
    simp only [S, xpow]
    refine Prod.ext ?_ ?_
    · simp only []
      rw [reverse_xor, BitVec.getLsbD_reverse]
      cases X.getMsbD i <;> simp [reverse_zero']
    · simp only []
      have := xt_reverse ((xpow R128 Y.reverse i).reverse)
      rw [reverse_reverse'] at this
      rw [this]

theorem gmult_eq (a b : BitVec 128) : Model.Gcm.gmult a b = Spec.Gcm.mul a b := by
  unfold Model.Gcm.gmult Spec.Gcm.mul
  rw [gmultStep_eq, loop_mul, mulState_eq a b 128 (le_refl _)]
  rfl

/-! ### GHASH -/

theorem slice16_eq (d : Bytes) (i : Nat) : Model.Gcm.slice16 d i = (d.drop i).take 16 := by
  unfold Model.Gcm.slice16
  split
  · rfl
  · rw [List.take_of_length_le]; rw [List.length_drop]; omega

theorem stepBy16_map (d : Bytes) : (Model.Gcm.stepBy16 d.length).map (fun i => Model.Gcm.slice16 d i) = chunks 16 d := by
  unfold Model.Gcm.stepBy16 chunks
  rw [List.map_map]
  refine List.map_congr_left fun i _ => ?_
  simp [slice16_eq]

/-- A block filled up with zeros. -/
def fill (c : Bytes) : Bytes := c ++ zeros (16 - c.length)

theorem chunks_length (x c : Bytes) (h : c ∈ chunks 16 x) : c.length ≤ 16 ∧ 0 < c.length := by
  induction x using chunk_induction 16 (by decide) with
  | nil => simp at h
  | step x hx ih =>
    rw [chunks_step 16 (by decide) x hx] at h
    rcases List.mem_cons.1 h with h | h
    · have := List.length_pos_iff.mpr hx
      rw [h, List.length_take]; omega
    · exact ih h

theorem foldl_congr_mem {α β : Type} {f g : β → α → β} (l : List α) (b : β) (h : ∀ a ∈ l, ∀ s, f s a = g s a) :
    l.foldl f b = l.foldl g b := by
  induction l generalizing b with
  | nil => rfl
  | cons a l ih =>
    rw [List.foldl_cons, List.foldl_cons, h a (List.mem_cons_self ..)]
    exact ih _ (fun a' h' s => h a' (List.mem_cons_of_mem _ h') s)

/-- Absorbing the (zero-filled) blocks of a string. -/
def ghFold (H : BitVec 128) (X : BitVec 128) (d : Bytes) : BitVec 128 :=
  (chunks 16 d).foldl (fun X c => Spec.Gcm.mul (X ^^^ Spec.Gcm.toBlock (fill c)) H) X

theorem absorb_eq (H : BitVec 128) (d : Bytes) (X : BitVec 128) : Model.Gcm.absorb H d X = ghFold H X d := by
  unfold Model.Gcm.absorb ghFold
  rw [← stepBy16_map, List.foldl_map]
  refine foldl_congr_mem _ _ ?_
  intro i hi s
  have hm : Model.Gcm.slice16 d i ∈ chunks 16 d := by rw [← stepBy16_map]; exact List.mem_map_of_mem hi
  rw [gmult_eq, toU128Be_eq _ (chunks_length d _ hm).1]; rfl

theorem pad16_length (x : Bytes) : (Spec.Gcm.pad16 x).length % 16 = 0 := by
  unfold Spec.Gcm.pad16; simp [zeros]; omega

theorem pad16_step (x : Bytes) (h : x ≠ []) : Spec.Gcm.pad16 x = fill (x.take 16) ++ Spec.Gcm.pad16 (x.drop 16) := by
  unfold Spec.Gcm.pad16 fill
  have hp := List.length_pos_iff.mpr h
  by_cases hx : 16 ≤ x.length
  · rw [show (16 - (x.take 16).length) = 0 from by rw [List.length_take]; omega, show zeros 0 = [] from rfl, List.append_nil,
      ← List.append_assoc, List.take_append_drop]
    congr 3
    rw [List.length_drop]; omega
  · rw [List.take_of_length_le (by omega), List.drop_of_length_le (by omega)]
    simp only [List.nil_append, List.length_nil, Nat.zero_mod]
    rw [show zeros ((16 - 0) % 16) = [] from rfl, List.append_nil]
    congr 2; omega

theorem fill_length (c : Bytes) (h : c.length ≤ 16) : (fill c).length = 16 := by
  unfold fill; simp [zeros]; omega

theorem ghash_fold (H : BitVec 128) (d rest : Bytes) (X : BitVec 128) :
    (blocks 16 (Spec.Gcm.pad16 d ++ rest)).foldl (fun Y b => Spec.Gcm.mul (Y ^^^ Spec.Gcm.toBlock b) H) X
      = (blocks 16 rest).foldl (fun Y b => Spec.Gcm.mul (Y ^^^ Spec.Gcm.toBlock b) H) (ghFold H X d) := by
  induction d using chunk_induction 16 (by decide) generalizing X with
  | nil => simp [Spec.Gcm.pad16, ghFold, zeros]
  | step d hd ih =>
    rw [pad16_step d hd, List.append_assoc, blocks_append 16 (by decide) _ _ (fill_length _ (by rw [List.length_take]; omega)),
      List.foldl_cons, ih, ghFold, ghFold, chunks_step 16 (by decide) d hd, List.foldl_cons]

/-! ### The data loop -/

theorem counter_block (Yi : BitVec 128) (c : Nat) :
    (Yi &&& ~~~ 0xFFFFFFFF#128) ||| BitVec.ofNat 128 (c % 0x100000000) = Yi.extractLsb' 32 96 ++ BitVec.ofNat 32 c := by
  ext i hi
  rw [BitVec.getElem_append]
  have hm : c % 0x100000000 = c % 2 ^ 32 := rfl
  have hconst : ∀ j < 128, (~~~ 0xFFFFFFFF#128).getLsbD j = decide (32 ≤ j) := by decide +kernel
  rw [BitVec.getElem_or, BitVec.getElem_and, ← BitVec.getLsbD_eq_getElem (x := ~~~ 0xFFFFFFFF#128), hconst i hi, hm]
  rw [← BitVec.getLsbD_eq_getElem (x := BitVec.ofNat 128 _), BitVec.getLsbD_ofNat, Nat.testBit_mod_two_pow]
  by_cases h : i < 32
  · simp only [h, dite_true]
    have : ¬ (32 ≤ i) := by omega
    rw [← BitVec.getLsbD_eq_getElem (x := BitVec.ofNat 32 c), BitVec.getLsbD_ofNat]
    simp [h, this, hi]
  · simp only [h, dite_false]
    have h2 : 32 ≤ i := by omega
    rw [BitVec.getElem_extractLsb']
    simp only [h2, decide_true, Bool.and_true, decide_false, Bool.false_and, Bool.and_false, Bool.or_false]
    rw [← BitVec.getLsbD_eq_getElem]
    congr 1; omega

theorem inc32_append (hi : BitVec 96) (lo : BitVec 32) : Spec.Gcm.inc32 (hi ++ lo) = hi ++ (lo + 1#32) := by
  unfold Spec.Gcm.inc32
  have h1 : (hi ++ lo).extractLsb' 32 96 = hi := by
    ext i h
    rw [BitVec.getElem_extractLsb', BitVec.getLsbD_append]
    have : ¬ (32 + i < 32) := by omega
    simp only [this, if_false]
    rw [show 32 + i - 32 = i from by omega, BitVec.getLsbD_eq_getElem]
  have h2 : (hi ++ lo).setWidth 32 = lo := by
    ext i h
    rw [BitVec.getElem_setWidth, BitVec.getLsbD_append]
    simp only [h, if_true]
    rw [BitVec.getLsbD_eq_getElem]
  rw [h1, h2]

theorem xorBytes_append_right (c z k : Bytes) : (xorBytes (c ++ z) k).take c.length = xorBytes c k := by
  unfold xorBytes
  rw [List.take_zipWith, List.take_left' rfl]
  apply List.ext_getElem (by simp)
  intro i h1 h2
  simp

/-- One output block. -/
theorem out_block (c k : Bytes) (hc : c.length ≤ 16) (hk : k.length = 16) :
    (u128ToBytesBe ((toU128Be c ^^^ toU128Be k) >>> ((16 - c.length) * 8))).drop (16 - c.length) = xorBytes c k ∧
    ((toU128Be c ^^^ toU128Be k) >>> ((16 - c.length) * 8)) <<< ((16 - c.length) * 8)
      = Spec.Gcm.toBlock (fill (xorBytes c k)) := by
  have e : (u128ToBytesBe (toU128Be c ^^^ toU128Be k)).take (16 - (16 - c.length)) = xorBytes c k := by
    rw [bytes_xor, bytes_toU128Be c hc, bytes_toU128Be k (by omega), hk, show zeros (16 - 16) = [] from rfl, List.append_nil,
      show 16 - (16 - c.length) = c.length from by omega, xorBytes_append_right]
  refine ⟨by rw [bytes_shr_drop, e], ?_⟩
  have e2 := bytes_shl_shr (toU128Be c ^^^ toU128Be k) (16 - c.length) (by omega)
  rw [e] at e2
  have e3 := congrArg toU128Be e2
  rw [toU128Be_bytes] at e3
  rw [e3]
  have hl : (xorBytes c k).length = c.length := by rw [xorBytes_length]; omega
  rw [toU128Be_eq _ (by simp [zeros, hl]; omega)]
  unfold fill
  rw [hl, show 16 - (xorBytes c k ++ zeros (16 - c.length)).length = 0 from by simp [zeros, hl]; omega, show zeros 0 = [] from rfl,
    List.append_nil]

theorem foldlM_ok {ε σ α : Type} (f : σ → α → Res ε σ) (g : σ → α → σ) (l : List α) (s : σ) (h : ∀ a ∈ l, ∀ s, f s a = .ok (g s a)) :
    l.foldlM f s = .ok (l.foldl g s) := by
  induction l generalizing s with
  | nil => rfl
  | cons a l ih =>
    rw [List.foldlM_cons, h a (List.mem_cons_self ..), Res.ok_bind, List.foldl_cons]
    exact ih _ (fun a' h' s => h a' (List.mem_cons_of_mem _ h') s)

/-- One step of the data loop, on a block. -/
def pureStep (E : Bytes → Bytes) (H : BitVec 128) (hi : BitVec 96) (enc : Bool) (s : Nat × BitVec 128 × Bytes) (c : Bytes) :
    Nat × BitVec 128 × Bytes :=
  let out := xorBytes c (E (Spec.Gcm.ofBlock (hi ++ BitVec.ofNat 32 (s.1 + 1))))
  ((s.1 + 1) % 0x100000000, Spec.Gcm.mul (s.2.1 ^^^ Spec.Gcm.toBlock (fill (if enc then out else c))) H, s.2.2 ++ out)

theorem dataStep_eq {ε : Type} (aes : Model.Aes.AES) (E : Bytes → Bytes) (hE : ∀ b : Bytes, b.length = 16 → aes.encrypt b = E b)
    (hEl : ∀ b, (E b).length = 16) (H : BitVec 128) (iv : Bytes) (hiv : iv.length = 12) (Yi : BitVec 128) (enc : Bool) (data : Bytes)
    (s : Nat × BitVec 128 × Bytes) (i : Nat) (hm : Model.Gcm.slice16 data i ∈ chunks 16 data) :
    Model.Gcm.dataStep (ε := ε) aes H iv Yi enc data s i
      = .ok (pureStep E H (Yi.extractLsb' 32 96) enc s (Model.Gcm.slice16 data i)) := by
  obtain ⟨ctr, X, out⟩ := s
  have hl := chunks_length data _ hm
  unfold Model.Gcm.dataStep Model.Gcm.counterBlock pureStep
  have hiv' : ¬ (iv.length * 8 ≠ 96) := by omega
  simp only [if_neg hiv', Res.ok_bind]
  rw [counter_block, hE _ (by simp), u128ToBytesBe_eq (_ ++ _)]
  have hb := out_block (Model.Gcm.slice16 data i) (E (Spec.Gcm.ofBlock (Yi.extractLsb' 32 96 ++ BitVec.ofNat 32 (ctr + 1)))) hl.1 (hEl _)
  rw [hb.1, hb.2]
  cases enc
  · simp only [Bool.false_eq_true, if_false]
    rw [gmult_eq, toU128Be_eq _ hl.1]; rfl
  · simp only [if_true]
    rw [gmult_eq]

theorem gctrBlocks_length (E : Bytes → Bytes) (hEl : ∀ b, (E b).length = 16) (x : Bytes) (CB : BitVec 128) :
    (Spec.Gcm.gctr E CB x).length = x.length := by
  unfold Spec.Gcm.gctr
  induction x using chunk_induction 16 (by decide) generalizing CB with
  | nil => simp [Spec.Gcm.gctrBlocks]
  | step x hx ih =>
    rw [chunks_step 16 (by decide) x hx, Spec.Gcm.gctrBlocks, List.length_append, ih, xorBytes_length, hEl, List.length_take,
      List.length_drop]
    omega

theorem gctr_step (E : Bytes → Bytes) (x : Bytes) (hx : x ≠ []) (CB : BitVec 128) :
    Spec.Gcm.gctr E CB x = xorBytes (x.take 16) (E (Spec.Gcm.ofBlock CB)) ++ Spec.Gcm.gctr E (Spec.Gcm.inc32 CB) (x.drop 16) := by
  unfold Spec.Gcm.gctr
  rw [chunks_step 16 (by decide) x hx, Spec.Gcm.gctrBlocks]

theorem loop_eq (E : Bytes → Bytes) (hEl : ∀ b, (E b).length = 16) (H : BitVec 128) (hi : BitVec 96) (enc : Bool) (x : Bytes)
    (ctr : Nat) (X : BitVec 128) (out : Bytes) :
    ((chunks 16 x).foldl (pureStep E H hi enc) (ctr, X, out)).2 =
      (ghFold H X (if enc then Spec.Gcm.gctr E (hi ++ BitVec.ofNat 32 (ctr + 1)) x else x),
       out ++ Spec.Gcm.gctr E (hi ++ BitVec.ofNat 32 (ctr + 1)) x) := by
  induction x using chunk_induction 16 (by decide) generalizing ctr X out with
  | nil => cases enc <;> simp [Spec.Gcm.gctr, Spec.Gcm.gctrBlocks, ghFold]
  | step x hx ih =>
    have hp := List.length_pos_iff.mpr hx
    rw [chunks_step 16 (by decide) x hx, List.foldl_cons, pureStep]
    simp only []
    rw [ih]
    have ectr : (BitVec.ofNat 32 ((ctr + 1) % 0x100000000 + 1)) = BitVec.ofNat 32 (ctr + 1) + 1#32 := by
      apply BitVec.eq_of_toNat_eq
      simp [BitVec.toNat_add, Nat.add_mod]
    rw [ectr, ← inc32_append, gctr_step E x hx, List.append_assoc]
    refine Prod.ext ?_ rfl
    simp only []
    cases enc
    · simp only [Bool.false_eq_true, if_false]
      conv_rhs => rw [ghFold, chunks_step 16 (by decide) x hx, List.foldl_cons]
      rfl
    · simp only [if_true]
      have hl : (xorBytes (x.take 16) (E (Spec.Gcm.ofBlock (hi ++ BitVec.ofNat 32 (ctr + 1))))).length = min 16 x.length := by
        rw [xorBytes_length, hEl, List.length_take]; omega
      by_cases h16 : 16 ≤ x.length
      · conv_rhs => rw [ghFold, chunks_append 16 (by decide) _ _ (by rw [hl]; omega), List.foldl_cons]
        rfl
      · rw [List.drop_of_length_le (by omega : x.length ≤ 16)]
        have hg : ∀ CB, Spec.Gcm.gctr E CB [] = [] := by intro CB; simp [Spec.Gcm.gctr, Spec.Gcm.gctrBlocks]
        rw [hg, List.append_nil]
        conv_rhs => rw [ghFold, chunks_small 16 (by decide) _ (by
          intro h0; rw [h0] at hl; simp at hl; omega) (by rw [hl]; omega)]
        simp [ghFold]

/-! ### The whole function -/

theorem aes_length (key block : Bytes) : (Spec.Aes.aes key block).length = 16 := by
  simp [Spec.Aes.aes, Spec.Aes.cipher, Spec.Aes.store]

theorem encrypt_aes {ε : Type} (key : Bytes) (hk : key.length = 16 ∨ key.length = 24 ∨ key.length = 32) :
    ∃ bs c, Model.Aes.Blocksize.new (key.length * 8) = some bs ∧ Model.Aes.AES.init (ε := ε) key bs = .ok c ∧
      ∀ b : Bytes, b.length = 16 → c.encrypt b = Spec.Aes.aes key b := by
  have hb : ∃ bs, Model.Aes.Blocksize.new (key.length * 8) = some bs ∧ key.length * 8 = bs.bits := by
    rcases hk with h | h | h <;> rw [h]
    · exact ⟨.B128, rfl, rfl⟩
    · exact ⟨.B192, rfl, rfl⟩
    · exact ⟨.B256, rfl, rfl⟩
  obtain ⟨bs, h1, h2⟩ := hb
  obtain ⟨c, hc, _⟩ := AesProof.encrypt_eq (ε := ε) key (zeros 16) bs h2 (by simp [zeros])
  refine ⟨bs, c, h1, hc, fun b hb => ?_⟩
  obtain ⟨c', hc', e⟩ := AesProof.encrypt_eq (ε := ε) key b bs h2 hb
  rw [hc] at hc'
  cases hc'
  exact e

theorem J0_eq (iv : Bytes) (hiv : iv.length = 12) :
    toU128Be iv ||| 1#128 = Spec.Gcm.toBlock (iv ++ [0, 0, 0, 1]) ∧
    Spec.Gcm.toBlock (iv ++ [0, 0, 0, 1]) = (toU128Be iv ||| 1#128).extractLsb' 32 96 ++ 1#32 := by
  have h1 : toU128Be iv = BitVec.ofNat 128 (beNat iv * 2 ^ 32) := by
    rw [toU128Be_eq iv (by omega), hiv, Spec.Gcm.toBlock, beNat_append, beNat_zeros, Nat.add_zero]
    rfl
  have h2 : Spec.Gcm.toBlock (iv ++ [0, 0, 0, 1]) = BitVec.ofNat 128 (beNat iv * 2 ^ 32 + 1) := by
    rw [Spec.Gcm.toBlock, beNat_append]; congr 1
  have h3 : toU128Be iv ||| 1#128 = Spec.Gcm.toBlock (iv ++ [0, 0, 0, 1]) := by
    rw [h1, h2]
    apply BitVec.eq_of_toNat_eq
    have hlt := beNat_lt iv
    rw [hiv] at hlt
    rw [BitVec.toNat_or, BitVec.toNat_ofNat, BitVec.toNat_ofNat, BitVec.toNat_ofNat]
    have hlt2 : beNat iv * 2 ^ 32 + 1 < 2 ^ 128 := by
      have : beNat iv < 2 ^ 96 := lt_of_lt_of_le hlt (by decide)
      omega
    rw [Nat.mod_eq_of_lt hlt2, Nat.mod_eq_of_lt (lt_trans (Nat.lt_succ_self _) hlt2)]
    rw [show 1 % 2 ^ 128 = 1 from rfl, Nat.mul_comm, ← Nat.two_pow_add_eq_or_of_lt (b := 1) (by norm_num)]
  refine ⟨h3, ?_⟩
  have := counter_block (toU128Be iv ||| 1#128) 1
  rw [show BitVec.ofNat 32 1 = 1#32 from rfl] at this
  rw [← this, ← h3]
  ext i hi
  have hconst : ∀ j < 128, (~~~ 0xFFFFFFFF#128).getLsbD j = decide (32 ≤ j) := by decide +kernel
  have hone : ∀ j < 128, (BitVec.ofNat 128 (1 % 0x100000000)).getLsbD j = (1#128).getLsbD j := by decide +kernel
  simp only [BitVec.getElem_or, BitVec.getElem_and]
  rw [← BitVec.getLsbD_eq_getElem (x := ~~~ 0xFFFFFFFF#128), hconst i hi, ← BitVec.getLsbD_eq_getElem (x := BitVec.ofNat 128 _), hone i hi]
  by_cases h : 32 ≤ i
  · simp [h]
  · have hz : (toU128Be iv)[i] = false := by
      rw [h1, ← BitVec.getLsbD_eq_getElem, BitVec.getLsbD_ofNat, Nat.mul_comm, Nat.testBit_two_pow_mul]
      simp [h]
    simp [h, hz]

theorem len_block (m n : Nat) (hm : m < 2 ^ 61) (hn : n < 2 ^ 61) :
    (BitVec.ofNat 128 (m * 8) <<< 64) ||| BitVec.ofNat 128 (n * 8) = Spec.Gcm.toBlock (beBytes 8 (m * 8) ++ beBytes 8 (n * 8)) := by
  rw [Spec.Gcm.toBlock, beNat_append, beNat_beBytes, beNat_beBytes, beBytes_length,
    Nat.mod_eq_of_lt (lt_of_lt_of_le (show m * 8 < 2 ^ 64 by omega) (by decide)),
    Nat.mod_eq_of_lt (lt_of_lt_of_le (show n * 8 < 2 ^ 64 by omega) (by decide))]
  apply BitVec.eq_of_toNat_eq
  rw [BitVec.toNat_or, BitVec.toNat_shiftLeft, BitVec.toNat_ofNat, BitVec.toNat_ofNat, BitVec.toNat_ofNat, Nat.shiftLeft_eq]
  have h1 : m * 8 % 2 ^ 128 = m * 8 := Nat.mod_eq_of_lt (by omega)
  have h2 : n * 8 % 2 ^ 128 = n * 8 := Nat.mod_eq_of_lt (by omega)
  have h3 : m * 8 * 2 ^ 64 % 2 ^ 128 = m * 8 * 2 ^ 64 := Nat.mod_eq_of_lt (by omega)
  rw [h1, h2, h3, show 256 ^ 8 = 2 ^ 64 from by norm_num, Nat.mul_comm _ (2 ^ 64), ← Nat.two_pow_add_eq_or_of_lt (by omega)]
  exact (Nat.mod_eq_of_lt (by omega)).symm

/-- What `gcm` computes for a 96-bit IV. -/
theorem gcm_eq {ε : Type} (key iv data aad : Bytes) (hk : key.length = 16 ∨ key.length = 24 ∨ key.length = 32) (hiv : iv.length = 12)
    (enc : Bool) (hm : aad.length < 2 ^ 61) (hn : data.length < 2 ^ 61) :
    Model.Gcm.gcm (ε := ε) key iv data aad enc =
      .ok (Spec.Gcm.gctr (Spec.Aes.aes key) (Spec.Gcm.inc32 (Spec.Gcm.toBlock (iv ++ [0, 0, 0, 1]))) data,
        Spec.Gcm.tag (Spec.Aes.aes key) iv
          (if enc then Spec.Gcm.gctr (Spec.Aes.aes key) (Spec.Gcm.inc32 (Spec.Gcm.toBlock (iv ++ [0, 0, 0, 1]))) data else data) aad) := by
  obtain ⟨bs, c, h1, h2, h3⟩ := encrypt_aes (ε := ε) key hk
  have hE := aes_length key
  unfold Model.Gcm.gcm
  rw [h1]
  simp only [Res.unwrap, Res.ok_bind, h2]
  rw [if_neg (by omega), if_neg (by omega)]
  rw [h3 _ (by simp [zeros]), h3 _ (by simp)]
  have hH : toU128Be (Spec.Aes.aes key (zeros 16)) = Spec.Gcm.toBlock (Spec.Aes.aes key (zeros 16)) := by
    rw [toU128Be_eq _ (by rw [hE]), hE, show zeros (16 - 16) = [] from rfl, List.append_nil]
  have hT : toU128Be (Spec.Aes.aes key (u128ToBytesBe (toU128Be iv ||| 1#128)))
      = Spec.Gcm.toBlock (Spec.Aes.aes key (Spec.Gcm.ofBlock (Spec.Gcm.toBlock (iv ++ [0, 0, 0, 1])))) := by
    rw [toU128Be_eq _ (by rw [hE]), hE, show zeros (16 - 16) = [] from rfl, List.append_nil, (J0_eq iv hiv).1, u128ToBytesBe_eq]
  rw [hH, hT, absorb_eq]
  have hl := loop_eq (Spec.Aes.aes key) hE (Spec.Gcm.toBlock (Spec.Aes.aes key (zeros 16)))
    ((toU128Be iv ||| 1#128).extractLsb' 32 96) enc data 1 (ghFold (Spec.Gcm.toBlock (Spec.Aes.aes key (zeros 16))) 0#128 aad) []
  have einc : (toU128Be iv ||| 1#128).extractLsb' 32 96 ++ BitVec.ofNat 32 (1 + 1)
      = Spec.Gcm.inc32 (Spec.Gcm.toBlock (iv ++ [0, 0, 0, 1])) := by
    rw [(J0_eq iv hiv).2, inc32_append]; rfl
  rw [einc] at hl
  have hfold : ∀ st, st = (chunks 16 data).foldl (pureStep (Spec.Aes.aes key) (Spec.Gcm.toBlock (Spec.Aes.aes key (zeros 16)))
      ((toU128Be iv ||| 1#128).extractLsb' 32 96) enc) (1, ghFold (Spec.Gcm.toBlock (Spec.Aes.aes key (zeros 16))) 0#128 aad, []) →
      (Model.Gcm.stepBy16 data.length).foldlM (Model.Gcm.dataStep (ε := ε) c (Spec.Gcm.toBlock (Spec.Aes.aes key (zeros 16))) iv
        (toU128Be iv ||| 1#128) enc data) (1, ghFold (Spec.Gcm.toBlock (Spec.Aes.aes key (zeros 16))) 0#128 aad, []) = .ok st := by
    intro st hst
    rw [foldlM_ok _ (fun s i => pureStep (Spec.Aes.aes key) (Spec.Gcm.toBlock (Spec.Aes.aes key (zeros 16)))
      ((toU128Be iv ||| 1#128).extractLsb' 32 96) enc s (Model.Gcm.slice16 data i)) _ _ (fun i hi s =>
        dataStep_eq c (Spec.Aes.aes key) h3 hE _ iv hiv _ enc data s i (by rw [← stepBy16_map]; exact List.mem_map_of_mem hi))]
    rw [hst, ← stepBy16_map data, List.foldl_map]
  generalize hst : (chunks 16 data).foldl (pureStep (Spec.Aes.aes key) (Spec.Gcm.toBlock (Spec.Aes.aes key (zeros 16)))
      ((toU128Be iv ||| 1#128).extractLsb' 32 96) enc) (1, ghFold (Spec.Gcm.toBlock (Spec.Aes.aes key (zeros 16))) 0#128 aad, []) = st at hl hfold
  obtain ⟨n, X', out'⟩ := st
  simp only [Prod.mk.injEq] at hl
  obtain ⟨rfl, rfl⟩ := hl
  rw [hfold _ rfl]
  simp only [Res.ok_bind]
  simp only [List.nil_append]
  congr 2
  have hClen : (if enc then Spec.Gcm.gctr (Spec.Aes.aes key) (Spec.Gcm.inc32 (Spec.Gcm.toBlock (iv ++ [0, 0, 0, 1]))) data else data).length
      = data.length := by
    cases enc
    · rfl
    · exact gctrBlocks_length _ hE _ _
  generalize (if enc then Spec.Gcm.gctr (Spec.Aes.aes key) (Spec.Gcm.inc32 (Spec.Gcm.toBlock (iv ++ [0, 0, 0, 1]))) data else data) = C at hClen ⊢
  unfold Spec.Gcm.tag Spec.Gcm.ghash
  simp only []
  rw [List.append_assoc, List.append_assoc, ghash_fold, ghash_fold, hClen]
  have hb : blocks 16 (beBytes 8 (aad.length * 8) ++ beBytes 8 (data.length * 8)) = [beBytes 8 (aad.length * 8) ++ beBytes 8 (data.length * 8)] := by
    have := blocks_append 16 (by decide) (beBytes 8 (aad.length * 8) ++ beBytes 8 (data.length * 8)) [] (by simp)
    rwa [List.append_nil, blocks_nil] at this
  rw [hb, List.foldl_cons, List.foldl_nil, len_block _ _ hm hn, gmult_eq, bytes_xor, u128ToBytesBe_eq, u128ToBytesBe_eq,
    ofBlock_toBlock _ (hE _)]
  rw [Spec.Gcm.gctr, chunks_small 16 (by decide) _ (by rw [← u128ToBytesBe_eq]; intro h0; have := congrArg List.length h0; simp at this)
    (by rw [← u128ToBytesBe_eq]; simp)]
  simp only [Spec.Gcm.gctrBlocks, List.append_nil]
  unfold xorBytes
  rw [List.zipWith_comm_of_comm]
  exact fun x y => BitVec.xor_comm x y

end ATLS.GcmProof
