import Verif.Model.Kdf
import Verif.Spec.Kdf
import Verif.Proof.Sha
/-
HMAC and HKDF refine RFC 2104 and RFC 5869.
-/
namespace ATLS
open ATLS.Spec ATLS.Model ATLS.ShaProof

/-- Which standard hash a `HashType` stands for. -/
def specHash : HashType → Spec.Hash
  | .sha256 => hashSha256
  | .sha384 => hashSha384

theorem sha256_eq (m : Bytes) (h : m.length < 2 ^ 53) : Model.sha256 m = Sha2.sha256 m := by
  unfold Model.sha256
  apply finalize256 _ _ _ _ h
  · have := rep_update sha256Cfg (by decide) m (rep_new sha256Cfg)
    simpa using this
  · rw [update_length]; simp [Sha.new]

theorem sha384_eq (m : Bytes) (h : m.length < 2 ^ 117) : Model.sha384 m = Sha2.sha384 m := by
  unfold Model.sha384
  apply finalize384 _ _ _ _ h
  · have := rep_update sha384Cfg (by decide) m (rep_new sha384Cfg)
    simpa using this
  · rw [update_length]; simp [Sha.new]

theorem shaX_eq (t : HashType) (m : Bytes) (h : m.length < 2 ^ 53) : shaX t m = (specHash t).H m := by
  cases t
  · exact sha256_eq m h
  · exact sha384_eq m (lt_of_lt_of_le h (by norm_num))

@[simp] theorem finalize_length {n : Nat} (C : ShaCfg n) (s : Sha n) : (s.finalize C).length = C.outLen := by
  simp [Sha.finalize]

@[simp] theorem sha256_length (m : Bytes) : (Model.sha256 m).length = 32 := by
  unfold Model.sha256; rw [finalize_length]; rfl
@[simp] theorem sha384_length (m : Bytes) : (Model.sha384 m).length = 48 := by
  unfold Model.sha384; rw [finalize_length]; rfl
@[simp] theorem shaX_length (t : HashType) (m : Bytes) : (shaX t m).length = t.size := by
  cases t <;> simp [shaX, HashType.size]
@[simp] theorem hmac_length (t : HashType) (k : Bytes) (u : List Bytes) : (Model.hmac t k u).length = t.size := by
  unfold Model.hmac hmacResult; exact shaX_length _ _
@[simp] theorem specHash_out (t : HashType) : (specHash t).out = t.size := by cases t <;> rfl

theorem size_pos (t : HashType) : 0 < t.size := by cases t <;> decide

/-- The keys for which the code follows RFC 2104. -/
def hmacKeyOk : HashType → Nat → Prop
  | .sha256, _ => True
  | .sha384, n => n ≤ 64 ∨ 128 < n

theorem hmacResult_eq (t : HashType) (key input : Bytes) (hk : hmacKeyOk t key.length)
    (hkl : key.length < 2 ^ 53) (hi : input.length < 2 ^ 52) :
    hmacResult t key input = Spec.hmac (specHash t) key input := by
  have hH : ∀ m : Bytes, m.length < 2 ^ 53 → shaX t m = (specHash t).H m := fun m h => shaX_eq t m h
  have hout : ∀ m : Bytes, m.length < 2 ^ 53 → ((specHash t).H m).length = t.size := by
    intro m h; rw [← hH m h, shaX_length]
  have hsz : t.size ≤ 48 := by cases t <;> decide
  have hB : (specHash t).block = if t = .sha384 then 128 else 64 := by cases t <;> rfl
  -- the padded keys agree
  have hkey : ((if key.length > 64 then shaX t key else key) ++
      zeros (128 - (if key.length > 64 then shaX t key else key).length)).take (if t = .sha384 then 128 else 64)
      = hmacKey (specHash t) key := by
    unfold hmacKey
    have hcase : (key.length > 64 ↔ key.length > (specHash t).block) := by
      cases t
      · simp [specHash, hashSha256]
      · simp only [hmacKeyOk] at hk
        simp only [specHash, hashSha384]
        omega
    have hsel : (if key.length > 64 then shaX t key else key) =
        (if key.length > (specHash t).block then (specHash t).H key else key) := by
      by_cases h : key.length > 64
      · rw [if_pos h, if_pos (hcase.1 h), hH key hkl]
      · rw [if_neg h, if_neg (fun h' => h (hcase.2 h'))]
    rw [hsel]
    have hle : (if key.length > (specHash t).block then (specHash t).H key else key).length ≤ 64 := by
      rw [← hsel]
      split
      · rw [shaX_length]; omega
      · omega
    simp only []
    generalize (if key.length > (specHash t).block then (specHash t).H key else key) = k at hle
    rw [hB]
    cases t
    · rw [List.take_append]
      simp only [reduceCtorEq, if_false]
      rw [List.take_of_length_le hle]
      congr 1
      simp [zeros, List.take_replicate]; omega
    · simp only [if_true]
      rw [List.take_of_length_le]
      simp; omega
  unfold hmacResult Spec.hmac
  simp only []
  rw [hkey]
  have hlk : (hmacKey (specHash t) key).length ≤ 128 := by
    rw [← hkey]; simp only [List.length_take]; split <;> omega
  rw [hH (_ ++ shaX t _) (by rw [List.length_append, shaX_length]; simp; omega), hH (_ ++ input) (by simp; omega)]

theorem hkdfT_length (t : HashType) (prk info : Bytes) (i : Nat) (hk : hmacKeyOk t prk.length)
    (hkl : prk.length < 2 ^ 53) (hi : info.length < 2 ^ 51) :
    (hkdfT (specHash t) prk info i).length = if i = 0 then 0 else t.size := by
  induction i with
  | zero => rfl
  | succ i ih =>
    have hsz : t.size ≤ 48 := by cases t <;> decide
    rw [hkdfT, ← hmacResult_eq t _ _ hk hkl]
    · simp [hmacResult]
    · simp only [List.length_append, ih, List.length_singleton]
      split <;> omega

theorem model_hkdfT (t : HashType) (prk info : Bytes) (i : Nat) (hk : hmacKeyOk t prk.length)
    (hkl : prk.length < 2 ^ 53) (hi : info.length < 2 ^ 51) :
    Model.hmac t prk [hkdfT (specHash t) prk info i, info, [BitVec.ofNat 8 (i + 1)]]
      = hkdfT (specHash t) prk info (i + 1) := by
  have hsz : t.size ≤ 48 := by cases t <;> decide
  rw [hkdfT, Model.hmac, hmacResult_eq t _ _ hk hkl]
  · simp
  · have := hkdfT_length t prk info i hk hkl hi
    simp only [List.flatten_cons, List.flatten_nil, List.length_append, this, List.length_singleton, List.length_nil]
    split <;> omega

theorem hkdfTs_length (t : HashType) (prk info : Bytes) (n : Nat) (hk : hmacKeyOk t prk.length)
    (hkl : prk.length < 2 ^ 53) (hi : info.length < 2 ^ 51) :
    (hkdfTs (specHash t) prk info n).length = n * t.size := by
  induction n with
  | zero => simp [hkdfTs]
  | succ n ih =>
    unfold hkdfTs at ih ⊢
    rw [List.range_succ, List.flatMap_append, List.length_append, ih]
    simp [hkdfT_length t prk info (n + 1) hk hkl hi, Nat.add_mul]

theorem expandLoop_eq (h : Hkdf) (info : Bytes) (outLen fuel i : Nat) (hk : hmacKeyOk h.hash h.prk.length)
    (hkl : h.prk.length < 2 ^ 53) (hi : info.length < 2 ^ 51) (hout : outLen ≤ h.hash.size * 255)
    (hil : i * h.hash.size < outLen + h.hash.size) (hf : outLen + 1 ≤ fuel + i) :
    h.expandLoop info outLen fuel i (hkdfT (specHash h.hash) h.prk info i)
        ((hkdfTs (specHash h.hash) h.prk info i).take outLen)
      = .ok (hkdfExpand (specHash h.hash) h.prk info outLen) := by
  have hsz := size_pos h.hash
  induction fuel generalizing i with
  | zero =>
    exfalso
    have : i * 1 ≤ i * h.hash.size := Nat.mul_le_mul_left _ hsz
    have : i ≥ outLen + 1 := by omega
    have h2 : (outLen + 1) * h.hash.size ≤ i * h.hash.size := Nat.mul_le_mul_right _ this
    rw [Nat.add_mul] at h2
    have h3 : outLen * 1 ≤ outLen * h.hash.size := Nat.mul_le_mul_left _ hsz
    omega
  | succ fuel ih =>
    rw [Hkdf.expandLoop]
    have hlen : ((hkdfTs (specHash h.hash) h.prk info i).take outLen).length = min outLen (i * h.hash.size) := by
      rw [List.length_take, hkdfTs_length _ _ _ _ hk hkl hi]
    by_cases hlt : i * h.hash.size < outLen
    · have hi255 : i ≠ 255 := by rintro rfl; rw [Nat.mul_comm] at hlt; omega
      rw [if_pos (by rw [hlen]; omega), if_neg hi255]
      simp only [model_hkdfT h.hash h.prk info i hk hkl hi, hlen]
      have hmin : min outLen (i * h.hash.size) = i * h.hash.size := by omega
      rw [hmin]
      have hTl : (hkdfT (specHash h.hash) h.prk info (i + 1)).length = h.hash.size := by
        rw [hkdfT_length _ _ _ _ hk hkl hi]; simp
      have hsl : slice (ε := Empty) (hkdfT (specHash h.hash) h.prk info (i + 1)) 0
          (min outLen (i * h.hash.size + h.hash.size) - i * h.hash.size)
          = .ok ((hkdfT (specHash h.hash) h.prk info (i + 1)).take
            (min outLen (i * h.hash.size + h.hash.size) - i * h.hash.size)) := by
        unfold slice
        rw [if_pos (by constructor <;> omega)]; simp
      rw [hsl, Res.ok_bind]
      have happ : (hkdfTs (specHash h.hash) h.prk info i).take outLen ++
          (hkdfT (specHash h.hash) h.prk info (i + 1)).take
            (min outLen (i * h.hash.size + h.hash.size) - i * h.hash.size)
          = (hkdfTs (specHash h.hash) h.prk info (i + 1)).take outLen := by
        have e : hkdfTs (specHash h.hash) h.prk info (i + 1) =
            hkdfTs (specHash h.hash) h.prk info i ++ hkdfT (specHash h.hash) h.prk info (i + 1) := by
          unfold hkdfTs; rw [List.range_succ, List.flatMap_append]; simp
        rw [e, List.take_append, hkdfTs_length _ _ _ _ hk hkl hi]
        congr 1
        by_cases hc : outLen ≤ i * h.hash.size + h.hash.size
        · congr 1; omega
        · rw [List.take_of_length_le (by omega), List.take_of_length_le (by omega)]
      rw [happ]
      apply ih
      · rw [Nat.add_mul]; omega
      · omega
    · rw [if_neg (by rw [hlen]; omega)]
      unfold hkdfExpand
      rw [specHash_out]
      congr 2
      have : (outLen + h.hash.size - 1) / h.hash.size = i := by
        apply Nat.div_eq_of_lt_le
        · omega
        · rw [Nat.add_mul]; omega
      rw [this]

theorem expand_eq (h : Hkdf) (info : Bytes) (outLen : Nat) (hk : hmacKeyOk h.hash h.prk.length)
    (hkl : h.prk.length < 2 ^ 53) (hi : info.length < 2 ^ 51) (hout : outLen ≤ h.hash.size * 255) :
    h.expand info outLen = .ok (some (hkdfExpand (specHash h.hash) h.prk info outLen)) := by
  unfold Hkdf.expand
  rw [if_neg (by omega)]
  have := expandLoop_eq h info outLen (outLen + 1) 0 hk hkl hi hout (by have := size_pos h.hash; omega) (by omega)
  simp only [hkdfTs, hkdfT, List.range_zero, List.flatMap_nil, List.take_nil] at this
  rw [this]; rfl

end ATLS
