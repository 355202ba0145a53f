import Verif.Proof.Gcm
import Verif.Spec.GcmIv
/-
GCM with initialisation vectors that are not 96 bits long.
-/
namespace ATLS.GcmProof
open ATLS ATLS.Spec ATLS.Model

theorem split_nat (x : BitVec 128) : x.toNat = (x.toNat / 2 ^ 32) * 2 ^ 32 + x.toNat % 2 ^ 32 := by
  have := Nat.div_add_mod x.toNat (2 ^ 32); omega

theorem append_nat (x : BitVec 128) (k : Nat) (hk : k < 2 ^ 32) :
    (x.extractLsb' 32 96 ++ BitVec.ofNat 32 k).toNat = (x.toNat / 2 ^ 32) * 2 ^ 32 + k := by
  rw [BitVec.toNat_append, BitVec.extractLsb'_toNat, BitVec.toNat_ofNat, Nat.mod_eq_of_lt hk, Nat.shiftRight_eq_div_pow]
  have hx := x.isLt
  rw [Nat.mod_eq_of_lt (by omega), ← Nat.shiftLeft_add_eq_or_of_lt hk, Nat.shiftLeft_eq]

theorem block_add (x : BitVec 128) (c : Nat) (h : x.toNat % 2 ^ 32 + c < 2 ^ 32) :
    x.toNat + c < 2 ^ 128 ∧ x + BitVec.ofNat 128 c = x.extractLsb' 32 96 ++ BitVec.ofNat 32 (x.toNat % 2 ^ 32 + c) := by
  have hx := x.isLt
  have hs := split_nat x
  have hlt : x.toNat + c < 2 ^ 128 := by omega
  refine ⟨hlt, BitVec.eq_of_toNat_eq ?_⟩
  rw [append_nat x _ h, BitVec.toNat_add, BitVec.toNat_ofNat, Nat.mod_eq_of_lt (a := c) (by omega), Nat.mod_eq_of_lt hlt]
  omega

theorem inc32_eq (x : BitVec 128) : Spec.Gcm.inc32 x = x.extractLsb' 32 96 ++ BitVec.ofNat 32 (x.toNat % 2 ^ 32 + 1) := by
  unfold Spec.Gcm.inc32
  congr 1

theorem dataStep_iv {ε : Type} (aes : Model.Aes.AES) (E : Bytes → Bytes) (hE : ∀ b : Bytes, b.length = 16 → aes.encrypt b = E b)
    (hEl : ∀ b, (E b).length = 16) (H : BitVec 128) (iv : Bytes) (hiv : iv.length ≠ 12) (Yi : BitVec 128) (enc : Bool) (data : Bytes)
    (k : Nat) (X : BitVec 128) (out : Bytes) (i : Nat) (hm : Model.Gcm.slice16 data i ∈ chunks 16 data)
    (hk : Yi.toNat % 2 ^ 32 + (k + 1) < 2 ^ 32) :
    Model.Gcm.dataStep (ε := ε) aes H iv Yi enc data (k, X, out) i
      = .ok (k + 1, (pureStep E H (Yi.extractLsb' 32 96) enc (Yi.toNat % 2 ^ 32 + k, X, out) (Model.Gcm.slice16 data i)).2) := by
  have hl := chunks_length data _ hm
  unfold Model.Gcm.dataStep Model.Gcm.counterBlock pureStep
  have hiv' : iv.length * 8 ≠ 96 := by omega
  have hc : (k + 1) % 0x100000000 = k + 1 := Nat.mod_eq_of_lt (by omega)
  obtain ⟨hb1, hb2⟩ := block_add Yi (k + 1) hk
  simp only [hc, if_pos hiv', if_pos hb1, Res.ok_bind]
  rw [hb2, hE _ (by simp), u128ToBytesBe_eq (_ ++ _), ← Nat.add_assoc]
  have hb := out_block (Model.Gcm.slice16 data i)
    (E (Spec.Gcm.ofBlock (Yi.extractLsb' 32 96 ++ BitVec.ofNat 32 (Yi.toNat % 2 ^ 32 + k + 1)))) hl.1 (hEl _)
  rw [hb.1, hb.2]
  cases enc
  · simp only [Bool.false_eq_true, if_false]
    rw [gmult_eq, toU128Be_eq _ hl.1]; rfl
  · simp only [if_true]
    rw [gmult_eq]

theorem loop_iv {ε : Type} (aes : Model.Aes.AES) (E : Bytes → Bytes) (hE : ∀ b : Bytes, b.length = 16 → aes.encrypt b = E b)
    (hEl : ∀ b, (E b).length = 16) (H : BitVec 128) (iv : Bytes) (hiv : iv.length ≠ 12) (Yi : BitVec 128) (enc : Bool) (data : Bytes)
    (l : List Nat) (hm : ∀ i ∈ l, Model.Gcm.slice16 data i ∈ chunks 16 data) (k : Nat) (X : BitVec 128) (out : Bytes)
    (hk : Yi.toNat % 2 ^ 32 + (k + l.length) < 2 ^ 32) :
    l.foldlM (Model.Gcm.dataStep (ε := ε) aes H iv Yi enc data) (k, X, out)
      = .ok (k + l.length, (l.foldl (fun s i => pureStep E H (Yi.extractLsb' 32 96) enc s (Model.Gcm.slice16 data i))
          (Yi.toNat % 2 ^ 32 + k, X, out)).2) := by
  induction l generalizing k X out with
  | nil => rfl
  | cons i l ih =>
    rw [List.length_cons] at hk
    rw [List.foldlM_cons, dataStep_iv aes E hE hEl H iv hiv Yi enc data k X out i (hm i (List.mem_cons_self ..)) (by omega),
      Res.ok_bind, List.foldl_cons]
    rw [ih (fun a h => hm a (List.mem_cons_of_mem _ h)) _ _ _ (by omega)]
    have e : pureStep E H (Yi.extractLsb' 32 96) enc (Yi.toNat % 2 ^ 32 + k, X, out) (Model.Gcm.slice16 data i)
        = (Yi.toNat % 2 ^ 32 + (k + 1),
            (pureStep E H (Yi.extractLsb' 32 96) enc (Yi.toNat % 2 ^ 32 + k, X, out) (Model.Gcm.slice16 data i)).2) := by
      refine Prod.ext ?_ rfl
      show (Yi.toNat % 2 ^ 32 + k + 1) % 0x100000000 = _
      rw [Nat.mod_eq_of_lt (by omega)]; omega
    rw [List.length_cons]
    conv_rhs => rw [e]
    rw [show k + 1 + l.length = k + (l.length + 1) from by omega]

theorem firstBlock_eq (E : Bytes → Bytes) (iv : Bytes) (hiv : iv.length ≠ 12) (hn : iv.length < 2 ^ 61) :
    Model.Gcm.gmult (Model.Gcm.absorb (Spec.Gcm.toBlock (E (zeros 16))) iv 0#128 ^^^ BitVec.ofNat 128 (iv.length * 8))
      (Spec.Gcm.toBlock (E (zeros 16))) = Spec.GcmIv.firstBlock E iv := by
  unfold Spec.GcmIv.firstBlock Spec.Gcm.ghash
  rw [if_neg hiv, ghash_fold, gmult_eq, absorb_eq]
  have hb : blocks 16 (zeros 8 ++ beBytes 8 (iv.length * 8)) = [zeros 8 ++ beBytes 8 (iv.length * 8)] := by
    have := blocks_append 16 (by decide) (zeros 8 ++ beBytes 8 (iv.length * 8)) [] (by simp [zeros])
    rwa [List.append_nil, blocks_nil] at this
  rw [hb, List.foldl_cons, List.foldl_nil]
  have h := len_block 0 iv.length (by decide) hn
  rw [show beBytes 8 (0 * 8) = zeros 8 from by decide, Nat.zero_mul, show (0#128 <<< 64) = 0#128 from by decide, BitVec.zero_or] at h
  rw [h]

/-- What `gcm` computes for an IV of another length. -/
theorem gcm_iv {ε : Type} (key iv data aad : Bytes) (hk : key.length = 16 ∨ key.length = 24 ∨ key.length = 32) (hiv : iv.length ≠ 12)
    (hvl : iv.length < 2 ^ 61) (enc : Bool) (hm : aad.length < 2 ^ 61) (hn : data.length < 2 ^ 61)
    (hf : Spec.GcmIv.Fits (Spec.Aes.aes key) iv data.length) :
    Model.Gcm.gcm (ε := ε) key iv data aad enc =
      .ok (Spec.Gcm.gctr (Spec.Aes.aes key) (Spec.Gcm.inc32 (Spec.GcmIv.firstBlock (Spec.Aes.aes key) iv)) data,
        Spec.GcmIv.tag (Spec.Aes.aes key) iv
          (if enc then Spec.Gcm.gctr (Spec.Aes.aes key) (Spec.Gcm.inc32 (Spec.GcmIv.firstBlock (Spec.Aes.aes key) iv)) data else data) aad) := by
  obtain ⟨bs, c, h1, h2, h3⟩ := encrypt_aes (ε := ε) key hk
  have hE := aes_length key
  unfold Model.Gcm.gcm
  rw [h1]
  simp only [Res.unwrap, Res.ok_bind, h2]
  rw [if_pos (by omega), if_pos (by omega)]
  rw [h3 (zeros 16) (by simp [zeros]), h3 _ (by simp)]
  have hH : toU128Be (Spec.Aes.aes key (zeros 16)) = Spec.Gcm.toBlock (Spec.Aes.aes key (zeros 16)) := by
    rw [toU128Be_eq _ (by rw [hE]), hE, show zeros (16 - 16) = [] from rfl, List.append_nil]
  rw [hH, firstBlock_eq (Spec.Aes.aes key) iv hiv hvl]
  unfold Spec.GcmIv.tag
  unfold Spec.GcmIv.Fits at hf
  generalize Spec.GcmIv.firstBlock (Spec.Aes.aes key) iv = J at hf ⊢
  have hT : toU128Be (Spec.Aes.aes key (u128ToBytesBe J)) = Spec.Gcm.toBlock (Spec.Aes.aes key (Spec.Gcm.ofBlock J)) := by
    rw [toU128Be_eq _ (by rw [hE]), hE, show zeros (16 - 16) = [] from rfl, List.append_nil, u128ToBytesBe_eq]
  rw [hT, absorb_eq]
  have hl := loop_eq (Spec.Aes.aes key) hE (Spec.Gcm.toBlock (Spec.Aes.aes key (zeros 16)))
    (J.extractLsb' 32 96) enc data (J.toNat % 2 ^ 32) (ghFold (Spec.Gcm.toBlock (Spec.Aes.aes key (zeros 16))) 0#128 aad) []
  rw [← inc32_eq] at hl
  rw [loop_iv c (Spec.Aes.aes key) h3 hE _ iv hiv J enc data _
    (fun i hi => by rw [← stepBy16_map]; exact List.mem_map_of_mem hi) 0 _ _ (by simpa [Model.Gcm.stepBy16] using hf)]
  rw [← stepBy16_map data, List.foldl_map] at hl
  rw [Nat.add_zero, hl]
  simp only [Res.ok_bind]
  simp only [List.nil_append]
  congr 2
  have hClen : (if enc then Spec.Gcm.gctr (Spec.Aes.aes key) (Spec.Gcm.inc32 J) data else data).length = data.length := by
    cases enc
    · rfl
    · exact gctrBlocks_length _ hE _ _
  generalize (if enc then Spec.Gcm.gctr (Spec.Aes.aes key) (Spec.Gcm.inc32 J) data else data) = C at hClen ⊢
  unfold Spec.Gcm.ghash
  rw [List.append_assoc, List.append_assoc, ghash_fold, ghash_fold, hClen]
  have hb : blocks 16 (beBytes 8 (aad.length * 8) ++ beBytes 8 (data.length * 8)) = [beBytes 8 (aad.length * 8) ++ beBytes 8 (data.length * 8)] := by
    have := blocks_append 16 (by decide) (beBytes 8 (aad.length * 8) ++ beBytes 8 (data.length * 8)) [] (by simp)
    rwa [List.append_nil, blocks_nil] at this
  rw [hb, List.foldl_cons, List.foldl_nil, len_block _ _ hm hn, gmult_eq, bytes_xor, u128ToBytesBe_eq, u128ToBytesBe_eq,
    ofBlock_toBlock _ (hE _)]
  rw [Spec.Gcm.gctr, chunks_small 16 (by decide) _ (by rw [← u128ToBytesBe_eq]; intro h0; have := congrArg List.length h0; simp at this)
    (by rw [← u128ToBytesBe_eq]; simp)]
  simp only [Spec.Gcm.gctrBlocks, List.append_nil]
  unfold xorBytes
  rw [List.zipWith_comm_of_comm]
  exact fun x y => BitVec.xor_comm x y

end ATLS.GcmProof
