import Verif.Model.Sha
import Verif.Spec.Sha2
import Verif.Proof.Bytes
/-
Refinement of the streaming SHA-2 code to FIPS 180-4.
-/
namespace ATLS
open ATLS.Spec ATLS.Model

theorem take_set_succ {α : Type} (l : List α) (i : Nat) (b : α) (h : i < l.length) :
    (l.set i b).take (i + 1) = l.take i ++ [b] := by
  rw [List.take_add_one]
  simp [h, List.take_set_of_le]

theorem blocks_snoc_partial (B : Nat) (m : Bytes) (b : Byte) (hB : 0 < B)
    (h : (m.length + 1) % B ≠ 0) : blocks B (m ++ [b]) = blocks B m := by
  have hd : (m.length + 1) / B = m.length / B := by
    rw [Nat.succ_div]; simp; intro hd; exact absurd (Nat.mod_eq_zero_of_dvd hd) h
  unfold blocks
  simp only [List.length_append, List.length_singleton, hd]
  apply List.map_congr_left
  intro i hi
  rw [List.mem_range] at hi
  have h1 : (i + 1) * B ≤ m.length := by
    calc (i + 1) * B ≤ (m.length / B) * B := Nat.mul_le_mul_right _ hi
      _ ≤ m.length := Nat.div_mul_le_self _ _
  rw [Nat.add_mul] at h1
  rw [List.drop_append_of_le_length (by omega), List.take_append_of_le_length (by simp; omega)]

theorem blocks_snoc_full (B : Nat) (m : Bytes) (b : Byte) (hB : 0 < B)
    (h : (m.length + 1) % B = 0) :
    blocks B (m ++ [b]) = blocks B m ++ [m.drop (m.length / B * B) ++ [b]] := by
  have hd : (m.length + 1) / B = m.length / B + 1 := by
    rw [Nat.succ_div]; simp [Nat.dvd_of_mod_eq_zero h]
  unfold blocks
  simp only [List.length_append, List.length_singleton, hd, List.range_succ, List.map_append, List.map_cons,
    List.map_nil]
  congr 1
  · apply List.map_congr_left
    intro i hi
    rw [List.mem_range] at hi
    have h1 : (i + 1) * B ≤ m.length := by
      calc (i + 1) * B ≤ (m.length / B) * B := Nat.mul_le_mul_right _ hi
        _ ≤ m.length := Nat.div_mul_le_self _ _
    rw [Nat.add_mul] at h1
    rw [List.drop_append_of_le_length (by omega), List.take_append_of_le_length (by simp; omega)]
  · have hle := Nat.div_mul_le_self m.length B
    rw [List.drop_append_of_le_length hle, List.take_of_length_le]
    have h2 := Nat.div_add_mod (m.length + 1) B
    rw [h, hd, Nat.mul_comm, Nat.add_mul] at h2
    simp; omega

namespace ShaProof
variable {n : Nat} (C : ShaCfg n)

/-- State after the complete blocks of `m`. -/
def absState (m : Bytes) : W8 n :=
  (blocks C.block m).foldl (fun st blk => calcRound C.toRoundCfg blk st) C.init

/-- The buffer state represents the message `m`. -/
structure Rep (s : Sha n) (m : Bytes) : Prop where
  hlen : s.input.length = C.block
  hil : s.inputLen = m.length % C.block
  hbuf : s.input.take s.inputLen = m.drop (m.length / C.block * C.block)
  hst : s.state = absState C m

theorem rep_new : Rep C (Sha.new C) [] := by
  refine ⟨by simp [Sha.new], by simp [Sha.new], by simp [Sha.new], ?_⟩
  simp [Sha.new, absState, blocks]

theorem rep_push (hB : 0 < C.block) {s : Sha n} {m : Bytes} (h : Rep C s m) (b : Byte) :
    Rep C (s.push C b) (m ++ [b]) := by
  obtain ⟨h1, h2, h3, h4⟩ := h
  have hlt : m.length % C.block < C.block := Nat.mod_lt _ hB
  have hil : s.inputLen < s.input.length := by omega
  have hdm := Nat.div_add_mod m.length C.block
  unfold Sha.push
  by_cases hfull : s.inputLen + 1 = C.block
  · have hz : (m.length + 1) % C.block = 0 := by
      have : m.length + 1 = C.block * (m.length / C.block + 1) := by rw [Nat.mul_add]; omega
      rw [this]; simp
    have hset : s.input.set s.inputLen b = m.drop (m.length / C.block * C.block) ++ [b] := by
      rw [← h3, ← take_set_succ _ _ _ hil, List.take_of_length_le]
      simp; omega
    simp only [hfull, if_true]
    refine ⟨by simp [h1], by simp [hz], ?_, ?_⟩
    · simp only [List.take_zero, List.length_append, List.length_singleton]
      rw [List.drop_of_length_le]
      have := Nat.div_add_mod (m.length + 1) C.block
      rw [hz, Nat.mul_comm] at this
      simp; omega
    · simp only [absState, blocks_snoc_full _ m b hB hz, List.foldl_append, List.foldl_cons, List.foldl_nil]
      rw [hset, h4]; rfl
  · have hnz : (m.length + 1) % C.block = m.length % C.block + 1 := by
      rw [Nat.add_mod]
      have h1B : 1 % C.block = 1 := Nat.mod_eq_of_lt (by omega)
      rw [h1B, Nat.mod_eq_of_lt (by omega)]
    have hd : (m.length + 1) / C.block = m.length / C.block := by
      rw [Nat.succ_div]; simp; intro hd
      have := Nat.mod_eq_zero_of_dvd hd
      omega
    rw [if_neg hfull]
    refine ⟨by simp [h1], by simp [hnz, h2], ?_, ?_⟩
    · simp only [List.length_append, List.length_singleton, hd]
      rw [take_set_succ _ _ _ hil, h3, List.drop_append_of_le_length (Nat.div_mul_le_self _ _)]
    · simp only [absState, blocks_snoc_partial _ m b hB (by omega)]
      exact h4

theorem rep_foldl (hB : 0 < C.block) (l : Bytes) {s : Sha n} {m : Bytes} (h : Rep C s m) :
    Rep C (l.foldl (Sha.push C) s) (m ++ l) := by
  induction l generalizing s m with
  | nil => simpa using h
  | cons b l ih =>
    have := ih (rep_push C hB h b)
    simpa using this

theorem rep_update (hB : 0 < C.block) (l : Bytes) {s : Sha n} {m : Bytes} (h : Rep C s m) :
    Rep C (s.update C l) (m ++ l) := by
  unfold Sha.update
  exact rep_foldl C hB l ⟨h.1, h.2, h.3, h.4⟩

theorem push_length (s : Sha n) (b : Byte) : (s.push C b).length = s.length := by
  unfold Sha.push; simp only []; split <;> rfl

theorem foldl_push_length (l : Bytes) (s : Sha n) : (l.foldl (Sha.push C) s).length = s.length := by
  induction l generalizing s with
  | nil => rfl
  | cons b l ih => rw [List.foldl_cons, ih, push_length]

theorem update_length (l : Bytes) (s : Sha n) : (s.update C l).length = s.length + l.length := by
  unfold Sha.update; rw [foldl_push_length]

theorem push_setLength (s : Sha n) (b : Byte) (k : Nat) :
    Sha.push C { s with length := k } b = { s.push C b with length := k } := by
  unfold Sha.push; simp only []; split <;> rfl

theorem foldl_push_setLength (l : Bytes) (s : Sha n) (k : Nat) :
    l.foldl (Sha.push C) { s with length := k } = { l.foldl (Sha.push C) s with length := k } := by
  induction l generalizing s with
  | nil => rfl
  | cons b l ih => rw [List.foldl_cons, List.foldl_cons, push_setLength, ih]

/-- Updating with a concatenation is updating twice. -/
theorem update_append (s : Sha n) (a b : Bytes) : s.update C (a ++ b) = (s.update C a).update C b := by
  have h : ∀ s : Sha n, ∀ l, s.update C l = { l.foldl (Sha.push C) s with length := s.length + l.length } := by
    intro s l; unfold Sha.update; rw [foldl_push_setLength]
  rw [h s (a ++ b), h (s.update C a) b, update_length, List.foldl_append]
  rw [h s a, foldl_push_setLength C b (List.foldl (Sha.push C) s a) (s.length + a.length)]
  simp [Nat.add_assoc]

/-! ### padding -/

theorem lenLoop_get (E P v : Nat) (l : Bytes) (hE : E ≤ P + 1) (hP : P ≤ l.length) (hE1 : 1 ≤ E) :
    (lenLoop E P v l).length = l.length ∧
    ∀ j, j < P → (lenLoop E P v l)[j]? =
      if P - (E - 1) ≤ j then some (BitVec.ofNat 8 (v >>> ((P - 1 - j) * 8))) else l[j]? := by
  unfold lenLoop
  obtain ⟨e, rfl⟩ : ∃ e, E = e + 1 := ⟨E - 1, by omega⟩
  simp only [Nat.add_sub_cancel]
  induction e with
  | zero => simp; omega
  | succ e ih =>
    obtain ⟨ih1, ih2⟩ := ih (by omega) (by omega)
    rw [List.range'_concat, List.foldl_append]
    simp only [List.foldl_cons, List.foldl_nil, Nat.one_mul]
    refine ⟨by simp [ih1], ?_⟩
    intro j hj
    rw [List.getElem?_set]
    by_cases hje : P - (1 + e) = j
    · have hlt : P - (1 + e) < (List.foldl (fun p i => p.set (P - i) (BitVec.ofNat 8 (v >>> ((i - 1) * 8)))) l
        (List.range' 1 e)).length := by rw [ih1]; omega
      rw [if_pos hje, if_pos hlt, if_pos (by omega)]
      have : P - 1 - j = 1 + e - 1 := by omega
      rw [this]
    · rw [if_neg hje, ih2 j hj]
      by_cases hc : P - e ≤ j
      · rw [if_pos hc, if_pos (by omega)]
      · rw [if_neg hc, if_neg (by omega)]

theorem beBytes_getElem? (k v j : Nat) (h : j < k) :
    (beBytes k v)[j]? = some (BitVec.ofNat 8 (v / 256 ^ (k - 1 - j))) := by
  induction k generalizing j with
  | zero => omega
  | succ k ih =>
    cases j with
    | zero => simp [beBytes]
    | succ j =>
      rw [beBytes, List.getElem?_cons_succ, ih j (by omega)]
      have : k - 1 - j = k + 1 - 1 - (j + 1) := by omega
      rw [this]

/-- The final padding block `[first] 0 … 0 len`, when the value fits in the bytes written. -/
theorem lenLoop_eq (E P v B : Nat) (first : Byte) (hE1 : 1 ≤ E) (hEP : E + 1 ≤ P ∨ (first = 0 ∧ E ≤ P))
    (hPB : P ≤ B) (hP0 : 0 < P) (hv : v < 256 ^ (E - 1)) :
    (lenLoop E P v ((zeros B).set 0 first)).take P
      = (first :: zeros (P - 1 - E)).take (P - E) ++ beBytes E v := by
  have hlen : ((zeros B).set 0 first).length = B := by simp
  obtain ⟨h1, h2⟩ := lenLoop_get E P v ((zeros B).set 0 first) (by omega) (by omega) hE1
  apply List.ext_getElem?
  intro j
  by_cases hj : j < P
  · rw [List.getElem?_take_of_lt hj, h2 j hj]
    by_cases hjE : j < P - E
    · have e1 : E + 1 ≤ P := by omega
      rw [if_neg (by omega)]
      rw [List.getElem?_append_left (by simp; omega), List.getElem?_take_of_lt hjE]
      cases j with
      | zero => rw [List.getElem?_set_self (by simp; omega)]; rfl
      | succ j =>
        rw [List.getElem?_set_ne (by omega)]
        simp [zeros, List.getElem?_replicate]
        rw [if_pos (by omega), if_pos (by omega)]
    · rw [List.getElem?_append_right (by simp; omega)]
      have hl : ((first :: zeros (P - 1 - E)).take (P - E)).length = P - E := by simp; omega
      rw [hl, beBytes_getElem? _ _ _ (by omega)]
      by_cases hc : P - (E - 1) ≤ j
      · rw [if_pos hc, Nat.shiftRight_eq_div_pow]
        have : (P - 1 - j) * 8 = 8 * (E - 1 - (j - (P - E))) := by omega
        rw [this, Nat.pow_mul]
      · rw [if_neg hc]
        have hj' : j = P - E := by omega
        have hz : v / 256 ^ (E - 1 - (j - (P - E))) = 0 := by
          rw [hj']; simp; omega
        rw [hz]
        by_cases hj0 : j = 0
        · have hf : first = 0 := by
            rcases hEP with h | h
            · omega
            · exact h.1
          subst hj0
          rw [List.getElem?_set_self (by simp; omega), hf]; rfl
        · rw [List.getElem?_set_ne (by omega)]
          simp [zeros, List.getElem?_replicate]; omega
  · rw [List.getElem?_eq_none (by simp [h1]; omega), List.getElem?_eq_none (by simp; omega)]

end ShaProof
end ATLS

namespace ATLS.ShaProof
open ATLS ATLS.Spec ATLS.Model
variable {n : Nat} (C : ShaCfg n)

theorem padded_rep (s : Sha n) (m : Bytes) (h : Rep C s m) (hl : s.length = m.length)
    (hE : 1 ≤ C.lenEnd) (hEB : C.lenEnd + 1 ≤ C.block) (hmin : C.minPad = C.lenEnd + 1)
    (hv : m.length * 8 < 256 ^ (C.lenEnd - 1)) :
    Rep C (s.paddInput C) (m ++ [0x80#8] ++
      zeros ((C.block - (m.length + 1 + C.lenEnd) % C.block) % C.block) ++ beBytes C.lenEnd (8 * m.length)) := by
  have hB : 0 < C.block := by omega
  have hlt : m.length % C.block < C.block := Nat.mod_lt _ hB
  have key : (m.length + 1 + C.lenEnd) % C.block = (m.length % C.block + 1 + C.lenEnd) % C.block := by
    rw [Nat.add_assoc, Nat.add_assoc, Nat.add_mod, Nat.add_mod (m.length % C.block)]; simp
  unfold Sha.paddInput
  simp only [hl]
  rw [if_pos (by omega)]
  by_cases hp : C.block - m.length % C.block < C.minPad
  · rw [if_pos hp]
    have h1 : List.take (C.block - m.length % C.block) ((zeros C.block).set 0 128#8)
        = [0x80#8] ++ zeros (C.block - m.length % C.block - 1) := by
      obtain ⟨k, hk⟩ : ∃ k, C.block = k + 1 := ⟨C.block - 1, by omega⟩
      obtain ⟨q, hq⟩ : ∃ q, C.block - m.length % C.block = q + 1 := ⟨C.block - m.length % C.block - 1, by omega⟩
      rw [hq, hk, zeros_succ]
      simp [zeros]; omega
    have h2 : ((zeros C.block).set 0 128#8).set 0 0#8 = (zeros C.block).set 0 0#8 := by simp
    rw [h1, h2, lenLoop_eq C.lenEnd C.block _ C.block 0#8 hE (Or.inr ⟨rfl, by omega⟩) (le_refl _) hB hv]
    have h3 := rep_update C hB
      ((0#8 :: zeros (C.block - 1 - C.lenEnd)).take (C.block - C.lenEnd) ++ beBytes C.lenEnd (m.length * 8))
      (rep_update C hB ([0x80#8] ++ zeros (C.block - m.length % C.block - 1)) h)
    have h4 : (0#8 :: zeros (C.block - 1 - C.lenEnd)).take (C.block - C.lenEnd) = zeros (C.block - C.lenEnd) := by
      rw [← zeros_succ, List.take_of_length_le (by simp; omega)]; congr 1; omega
    have h5 : (C.block - (m.length + 1 + C.lenEnd) % C.block) % C.block
        = (C.block - m.length % C.block - 1) + (C.block - C.lenEnd) := by
      rw [key]
      have h6 : m.length % C.block + 1 + C.lenEnd = (m.length % C.block + 1 + C.lenEnd - C.block) + C.block := by omega
      rw [h6, Nat.add_mod_right, Nat.mod_eq_of_lt (by omega : m.length % C.block + 1 + C.lenEnd - C.block < C.block),
        Nat.mod_eq_of_lt (by omega)]
      omega
    rw [h4] at h3 ⊢
    rw [h5, zeros_add, Nat.mul_comm 8]
    simpa using h3
  · rw [if_neg hp]
    rw [lenLoop_eq C.lenEnd _ _ C.block 0x80#8 hE (Or.inl (by omega)) (by omega) (by omega) hv]
    have h3 := rep_update C hB ((0x80#8 :: zeros (C.block - m.length % C.block - 1 - C.lenEnd)).take
        (C.block - m.length % C.block - C.lenEnd) ++ beBytes C.lenEnd (m.length * 8)) h
    have h4 : (0x80#8 :: zeros (C.block - m.length % C.block - 1 - C.lenEnd)).take
        (C.block - m.length % C.block - C.lenEnd) = [0x80#8] ++ zeros (C.block - m.length % C.block - 1 - C.lenEnd) := by
      rw [List.take_of_length_le (by simp; omega)]; rfl
    have h5 : (C.block - (m.length + 1 + C.lenEnd) % C.block) % C.block
        = C.block - m.length % C.block - 1 - C.lenEnd := by
      rw [key]
      by_cases he : m.length % C.block + 1 + C.lenEnd = C.block
      · rw [he]; simp; omega
      · rw [Nat.mod_eq_of_lt (by omega : m.length % C.block + 1 + C.lenEnd < C.block), Nat.mod_eq_of_lt (by omega)]
        omega
    rw [h4] at h3 ⊢
    rw [h5, Nat.mul_comm 8]
    simpa using h3

/-! ### the compression function -/

theorem loadWord_eq (n : Nat) (l : Bytes) (hn : 8 * l.length = n) :
    loadWord n l = BitVec.ofNat n (beNat l) := by
  have h : ∀ (l : Bytes) (k : Nat) (acc : BitVec n), 8 * (k + l.length) = n →
      (l.zipIdx k).foldl (fun (acc : BitVec n) (p : Byte × Nat) => acc + (p.1.setWidth n) <<< (n - 8 - 8 * p.2)) acc
        = acc + BitVec.ofNat n (beNat l) := by
    intro l
    induction l with
    | nil => intro k acc _; simp
    | cons b l ih =>
      intro k acc hk
      rw [List.zipIdx_cons, List.foldl_cons, ih _ _ (by simp at hk; omega), beNat_cons]
      have h1 : n - 8 - 8 * (b, k).2 = 8 * l.length := by simp at hk ⊢; omega
      rw [h1, BitVec.add_assoc]
      congr 1
      apply BitVec.eq_of_toNat_eq
      simp [BitVec.toNat_add, BitVec.toNat_shiftLeft, Nat.shiftLeft_eq, Nat.pow_mul]
  unfold loadWord
  rw [h l 0 0 (by omega)]; simp

/-- The Rust constants and functions are those of the standard. -/
structure Matches (C : RoundCfg n) (P : Sha2.Params n) : Prop where
  S0 : C.bsig0 = P.S0
  S1 : C.bsig1 = P.S1
  s0 : C.ssig0 = P.s0
  s1 : C.ssig1 = P.s1
  k : C.k = (List.range P.rounds).map P.K

def toV (s : W8 n) : Sha2.Vars n :=
  { a := s.a, b := s.b, c := s.c, d := s.d, e := s.e, f := s.f, g := s.g, h := s.h }

def toL (s : W8 n) : List (BitVec n) := [s.a, s.b, s.c, s.d, s.e, s.f, s.g, s.h]

variable {C' : RoundCfg n} {P : Sha2.Params n}

theorem nextW_eq (hm : Matches C' P) (blk : Bytes) (hb : blk.length = 16 * (n / 8)) (hn : 8 * (n / 8) = n) (t : Nat)
    (w : List (BitVec n)) (hw : ∀ i, i < t → w.getD i 0 = Sha2.W P (Sha2.word n blk) (t - 1 - i)) :
    nextW C' blk t w = Sha2.W P (Sha2.word n blk) t := by
  unfold nextW
  by_cases ht : t ≤ 15
  · rw [if_pos ht, Sha2.W, dif_pos (by omega), Sha2.word, loadWord_eq]
    simp [hb]
    have : (t + 1) * (n / 8) ≤ 16 * (n / 8) := Nat.mul_le_mul_right _ (by omega)
    rw [Nat.add_mul] at this
    omega
  · rw [if_neg ht, Sha2.W, dif_neg (by omega), hw 1 (by omega), hw 6 (by omega), hw 14 (by omega), hw 15 (by omega),
      hm.s0, hm.s1]
    unfold add
    have e1 : t - 1 - 1 = t - 2 := by omega
    have e2 : t - 1 - 6 = t - 7 := by omega
    have e3 : t - 1 - 14 = t - 15 := by omega
    have e4 : t - 1 - 15 = t - 16 := by omega
    rw [e1, e2, e3, e4]
    simp only [BitVec.add_assoc]

theorem roundLoop_eq (hm : Matches C' P) (blk : Bytes) (hb : blk.length = 16 * (n / 8)) (hn : 8 * (n / 8) = n)
    (r t : Nat) (w : List (BitVec n)) (s : W8 n)
    (hw : ∀ i, i < t → w.getD i 0 = Sha2.W P (Sha2.word n blk) (t - 1 - i)) :
    toV (roundLoop C' blk ((List.range' t r).map P.K) t w s)
      = (List.range' t r).foldl (Sha2.step P (Sha2.word n blk)) (toV s) := by
  induction r generalizing t w s with
  | zero => rfl
  | succ r ih =>
    rw [List.range'_succ, List.map_cons, List.foldl_cons, roundLoop]
    have hnw := nextW_eq hm blk hb hn t w hw
    simp only [hnw]
    rw [ih]
    · congr 1
      unfold roundStep toV Sha2.step add Model.ch Model.maj Sha2.Ch Sha2.Maj
      rw [hm.S0, hm.S1]
      simp only [BitVec.add_assoc]
    · intro i hi
      cases i with
      | zero => simp
      | succ i =>
        rw [List.getD_cons_succ, hw i (by omega)]
        congr 1; omega

theorem calcRound_eq (hm : Matches C' P) (blk : Bytes) (hb : blk.length = 16 * (n / 8)) (hn : 8 * (n / 8) = n)
    (s : W8 n) : toL (calcRound C' blk s) = Sha2.compress P (toL s) blk := by
  have h := roundLoop_eq hm blk hb hn P.rounds 0 [] s (by intro i hi; omega)
  rw [← List.range_eq_range', ← hm.k] at h
  unfold calcRound Sha2.compress
  have h2 : Sha2.ofList (toL s) = toV s := rfl
  simp only [h2, ← h]
  simp [toL, toV, Sha2.toList, add, BitVec.add_comm]

theorem blocks_length (B : Nat) (m blk : Bytes) (h : blk ∈ blocks B m) : blk.length = B := by
  unfold blocks at h
  simp only [List.mem_map, List.mem_range] at h
  obtain ⟨i, hi, rfl⟩ := h
  have h1 : (i + 1) * B ≤ m.length := by
    calc (i + 1) * B ≤ (m.length / B) * B := Nat.mul_le_mul_right _ hi
      _ ≤ m.length := Nat.div_mul_le_self _ _
  rw [Nat.add_mul] at h1
  simp; omega

theorem absState_eq (hm : Matches C.toRoundCfg P) (hb : C.block = 16 * (n / 8)) (hn : 8 * (n / 8) = n)
    (hinit : toL C.init = P.H) (m : Bytes) :
    toL (absState C m) = (blocks (16 * (n / 8)) m).foldl (Sha2.compress P) P.H := by
  unfold absState
  rw [← hinit, hb]
  have : ∀ (bs : List Bytes) (s : W8 n), (∀ b ∈ bs, b.length = 16 * (n / 8)) →
      toL (bs.foldl (fun st blk => calcRound C.toRoundCfg blk st) s) = bs.foldl (Sha2.compress P) (toL s) := by
    intro bs
    induction bs with
    | nil => intro s _; rfl
    | cons b bs ih =>
      intro s hbs
      rw [List.foldl_cons, List.foldl_cons, ih _ (fun x hx => hbs x (List.mem_cons_of_mem _ hx)),
        calcRound_eq hm b (hbs b List.mem_cons_self) hn]
  exact this _ _ (fun b hb => blocks_length _ _ _ hb)

theorem rotr32_eq (m : Nat) (h : 0 < m) (h2 : m < 32) (x : BitVec 32) : rotr32 m x = x.rotateRight m := by
  have h3 : (32 - m) &&& 31 = 32 - m := by
    have := Nat.and_two_pow_sub_one_eq_mod (32 - m) 5
    simp only [Nat.reducePow, Nat.reduceSub] at this
    rw [this, Nat.mod_eq_of_lt (by omega)]
  unfold rotr32
  rw [h3, BitVec.rotateRight_def, Nat.mod_eq_of_lt h2]

theorem rotr64_eq (m : Nat) (h : 0 < m) (h2 : m < 64) (x : BitVec 64) : rotr64 m x = x.rotateRight m := by
  have h3 : (64 - m) &&& 63 = 64 - m := by
    have := Nat.and_two_pow_sub_one_eq_mod (64 - m) 6
    simp only [Nat.reducePow, Nat.reduceSub] at this
    rw [this, Nat.mod_eq_of_lt (by omega)]
  unfold rotr64
  rw [h3, BitVec.rotateRight_def, Nat.mod_eq_of_lt h2]

theorem primes_eq : Sha2.primes = [2, 3, 5, 7, 11, 13, 17, 19, 23, 29, 31, 37, 41, 43, 47, 53, 59, 61, 67, 71, 73, 79, 83,
    89, 97, 101, 103, 107, 109, 113, 127, 131, 137, 139, 149, 151, 157, 163, 167, 173, 179, 181, 191, 193, 197, 199,
    211, 223, 227, 229, 233, 239, 241, 251, 257, 263, 269, 271, 277, 281, 283, 293, 307, 311, 313, 317, 331, 337, 347,
    349, 353, 359, 367, 373, 379, 383, 389, 397, 401, 409] := by
  decide +kernel

theorem matches256 : Matches sha256Cfg.toRoundCfg Sha2.P256 where
  S0 := by
    funext x
    simp [sha256Cfg, Sha2.P256, bsig0_256, rotr32_eq]
  S1 := by
    funext x
    simp [sha256Cfg, Sha2.P256, bsig1_256, rotr32_eq]
  s0 := by
    funext x
    simp [sha256Cfg, Sha2.P256, ssig0_256, rotr32_eq]
  s1 := by
    funext x
    simp [sha256Cfg, Sha2.P256, ssig1_256, rotr32_eq]
  k := by
    unfold Sha2.P256
    rw [primes_eq]
    decide +kernel

theorem matches384 : Matches sha384Cfg.toRoundCfg Sha2.P384 where
  S0 := by
    funext x
    simp [sha384Cfg, Sha2.P384, bsig0_384, rotr64_eq]
  S1 := by
    funext x
    simp [sha384Cfg, Sha2.P384, bsig1_384, rotr64_eq]
  s0 := by
    funext x
    simp [sha384Cfg, Sha2.P384, ssig0_384, rotr64_eq]
  s1 := by
    funext x
    simp [sha384Cfg, Sha2.P384, ssig1_384, rotr64_eq]
  k := by
    unfold Sha2.P384
    rw [primes_eq]
    decide +kernel

theorem init256 : toL sha256Cfg.init = Sha2.P256.H := by
  unfold Sha2.P256
  rw [primes_eq]
  decide +kernel

theorem init384 : toL sha384Cfg.init = Sha2.P384.H := by
  unfold Sha2.P384
  rw [primes_eq]
  decide +kernel

theorem outByte {n : Nat} (w : BitVec n) (k : Nat) :
    (w >>> k).setWidth 8 = BitVec.ofNat 8 (w.toNat / 2 ^ k) := by
  apply BitVec.eq_of_toNat_eq
  simp [Nat.shiftRight_eq_div_pow]

/-- `finalize` of a state representing `m` is the FIPS digest of `m`. -/
theorem finalize256 (s : Sha 32) (m : Bytes) (h : Rep sha256Cfg s m) (hl : s.length = m.length) (hm : m.length < 2 ^ 53) :
    s.finalize sha256Cfg = Sha2.sha256 m := by
  have hr := padded_rep sha256Cfg s m h hl (by decide) (by decide) rfl
    (by change m.length * 8 < 256 ^ 7; norm_num at hm ⊢; omega)
  have hs := absState_eq sha256Cfg matches256 rfl rfl init256 (Sha2.pad 32 m)
  have e : (m ++ [0x80#8] ++ zeros ((sha256Cfg.block - (m.length + 1 + sha256Cfg.lenEnd) % sha256Cfg.block) % sha256Cfg.block) ++
      beBytes sha256Cfg.lenEnd (8 * m.length)) = Sha2.pad 32 m := rfl
  unfold Sha.finalize Sha2.sha256 Sha2.hash
  simp only [hr.hst, ← hs, e, outByte]
  generalize absState sha256Cfg (Sha2.pad 32 m) = st
  simp [sha256Cfg, toL, Sha2.P256, beBytes, List.range, List.range.loop, W8.get]

theorem finalize384 (s : Sha 64) (m : Bytes) (h : Rep sha384Cfg s m) (hl : s.length = m.length) (hm : m.length < 2 ^ 117) :
    s.finalize sha384Cfg = Sha2.sha384 m := by
  have hr := padded_rep sha384Cfg s m h hl (by decide) (by decide) rfl
    (by change m.length * 8 < 256 ^ 15; norm_num at hm ⊢; omega)
  have hs := absState_eq sha384Cfg matches384 rfl rfl init384 (Sha2.pad 64 m)
  have e : (m ++ [0x80#8] ++ zeros ((sha384Cfg.block - (m.length + 1 + sha384Cfg.lenEnd) % sha384Cfg.block) % sha384Cfg.block) ++
      beBytes sha384Cfg.lenEnd (8 * m.length)) = Sha2.pad 64 m := rfl
  unfold Sha.finalize Sha2.sha384 Sha2.hash
  simp only [hr.hst, ← hs, e, outByte]
  generalize absState sha384Cfg (Sha2.pad 64 m) = st
  simp [sha384Cfg, toL, Sha2.P384, beBytes, List.range, List.range.loop, W8.get]

end ATLS.ShaProof
