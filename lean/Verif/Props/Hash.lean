import Verif.Proof.Kdf
/-
C06-C10: SHA-256, SHA-384, transcript hashing, HMAC, HKDF.
-/
namespace ATLS
open ATLS.Spec ATLS.Model

/-- C06: `sha256` is the FIPS 180-4 function (a digest of 32 bytes). The bound is the one at which the code's 64-bit bit counter and
its seven length bytes suffice. -/
theorem C06_sha256_fips (m : Bytes) (h : m.length < 2 ^ 53) :
    Model.sha256 m = Sha2.sha256 m ∧ (Model.sha256 m).length = 32 := by
  exact ⟨sha256_eq m h, sha256_length m⟩

example : Model.sha256 (ascii "abc") = [0xba, 0x78, 0x16, 0xbf, 0x8f, 0x01, 0xcf, 0xea, 0x41, 0x41, 0x40, 0xde, 0x5d, 0xae, 0x22, 0x23,
    0xb0, 0x03, 0x61, 0xa3, 0x96, 0x17, 0x7a, 0x9c, 0xb4, 0x10, 0xff, 0x61, 0xf2, 0x00, 0x15, 0xad] := by
  decide +kernel

/-- C07: `sha384` is the FIPS 180-4 function (a digest of 48 bytes). -/
theorem C07_sha384_fips (m : Bytes) (h : m.length < 2 ^ 117) :
    Model.sha384 m = Sha2.sha384 m ∧ (Model.sha384 m).length = 48 := by
  exact ⟨sha384_eq m h, sha384_length m⟩

example : (Model.sha384 (ascii "abc")).take 8 = [0xcb, 0x00, 0x75, 0x3f, 0x45, 0xa3, 0x5e, 0x8b] := by
  decide +kernel

/-! ### C08 -/

/-- What a user can do with a transcript hash: feed bytes or read the digest of what was fed so far. -/
inductive HashOp where
  | feed (b : Bytes)
  | digest

/-- The digests read in a sequence of operations on the model's transcript hash object. -/
def runHash : TsHash → List HashOp → List Bytes
  | _, [] => []
  | t, .feed b :: ops => runHash (t.update b) ops
  | t, .digest :: ops => t.finalize :: runHash t ops

/-- The digests that should be read: the hash of the concatenation of everything fed before. -/
def expectedDigests (H : Bytes → Bytes) : Bytes → List HashOp → List Bytes
  | _, [] => []
  | m, .feed b :: ops => expectedDigests H (m ++ b) ops
  | m, .digest :: ops => H m :: expectedDigests H m ops

/-- All bytes fed. -/
def fed : List HashOp → Bytes
  | [] => []
  | .feed b :: ops => b ++ fed ops
  | .digest :: ops => fed ops

/-- The FIPS function of a hash type. -/
def fips : HashType → Bytes → Bytes
  | .sha256 => Sha2.sha256
  | .sha384 => Sha2.sha384

theorem runHash_eq (t : HashType) (ops : List HashOp) (m : Bytes) (h : (m ++ fed ops).length < 2 ^ 53) :
    runHash ((TsHash.new t).update m) ops = expectedDigests (fips t) m ops := by
  induction ops generalizing m with
  | nil => rfl
  | cons op ops ih =>
    cases op with
    | feed b =>
      have e : ((TsHash.new t).update m).update b = (TsHash.new t).update (m ++ b) := by
        cases t <;> simp only [TsHash.new, TsHash.update, ShaProof.update_append]
      rw [runHash, e, expectedDigests, ih]
      simpa [fed] using h
    | digest =>
      have hm : m.length < 2 ^ 53 := by
        simp only [List.length_append] at h; omega
      rw [runHash, expectedDigests, ih m h]
      congr 1
      cases t with
      | sha256 => exact sha256_eq m hm
      | sha384 => exact sha384_eq m (lt_of_lt_of_le hm (by norm_num))

/-- C08: whatever sequence of updates and digest reads is performed on a fresh transcript hash, every digest read is the FIPS hash
of the concatenation of all bytes fed before it. -/
theorem C08_transcript_chunking (t : HashType) (ops : List HashOp) (h : (fed ops).length < 2 ^ 53) :
    runHash (TsHash.new t) ops = expectedDigests (fips t) [] ops := by
  have := runHash_eq t ops [] (by simpa using h)
  rwa [show (TsHash.new t).update [] = TsHash.new t by cases t <;> rfl] at this

example : (fed [.feed (ascii "a"), .digest, .feed (ascii "bc"), .digest]).length < 2 ^ 53 ∧
    expectedDigests (fips .sha256) [] [.feed (ascii "a"), .digest, .feed (ascii "bc"), .digest]
      = [Sha2.sha256 (ascii "a"), Sha2.sha256 (ascii "abc")] := ⟨by decide, rfl⟩

/-! ### C09 -/

/-- The RFC's hash parameters (function, block size, output size) of a hash type. -/
def rfcHash : HashType → Spec.Hash
  | .sha256 => ⟨Sha2.sha256, 64, 32⟩
  | .sha384 => ⟨Sha2.sha384, 128, 48⟩

theorem rfcHash_eq (t : HashType) : rfcHash t = specHash t := by cases t <;> rfl

/-- The full claim of C09. -/
def C09_statement : Prop :=
  ∀ (t : HashType) (key : Bytes) (updates : List Bytes), key.length < 2 ^ 53 → updates.flatten.length < 2 ^ 52 →
    Model.hmac t key updates = Spec.hmac (rfcHash t) key updates.flatten

/-- C09 fails for SHA-384 with a key of 100 bytes: the code hashes keys longer than 64 bytes although SHA-384's block has 128. -/
theorem C09_false : ¬ C09_statement := by
  intro h
  have h1 := h .sha384 (zeros 100 ++ [1#8]) [] (by decide) (by decide)
  have e : ∀ m : Bytes, m.length < 2 ^ 53 → Sha2.sha384 m = Model.sha384 m :=
    fun m hm => (sha384_eq m (lt_of_lt_of_le hm (by norm_num))).symm
  unfold Spec.hmac Spec.hmacKey at h1
  simp only [rfcHash] at h1
  simp only [show ¬ (zeros 100 ++ [1#8] : Bytes).length > 128 by decide, if_false] at h1
  rw [e (_ ++ List.flatten []) (by simp), e _ (by simp)] at h1
  revert h1
  decide +kernel

/-- C09 for SHA-256 with every key, and for SHA-384 with keys of at most 64 or more than 128 bytes. Missing: SHA-384 keys of 65 to
128 bytes, for which the code deviates (`C09_false`). The message may be given in any chunks. -/
theorem C09_hmac_partial (t : HashType) (key : Bytes) (updates : List Bytes) (hk : key.length < 2 ^ 53)
    (hu : updates.flatten.length < 2 ^ 52) (ht : t = .sha256 ∨ key.length ≤ 64 ∨ 128 < key.length) :
    Model.hmac t key updates = Spec.hmac (rfcHash t) key updates.flatten := by
  rw [rfcHash_eq]
  refine hmacResult_eq t key _ ?_ hk hu
  cases t
  · trivial
  · rcases ht with h | h
    · exact absurd h (by decide)
    · exact h

example : HashType.sha384 = .sha256 ∨ (zeros 48).length ≤ 64 ∨ 128 < (zeros 48).length := by decide
example : HashType.sha256 = .sha256 ∨ (zeros 100).length ≤ 64 ∨ 128 < (zeros 100).length := by decide

/-! ### C10 -/

/-- The full claim of C10, extract: every salt. -/
def C10_statement : Prop :=
  ∀ (t : HashType) (salt ikm : Bytes), salt.length < 2 ^ 53 → ikm.length < 2 ^ 52 →
    Hkdf.extract t salt ikm = ⟨t, Spec.hkdfExtract (rfcHash t) salt ikm⟩

/-- C10 fails for SHA-384 with a salt of 101 bytes, as C09 does. -/
theorem C10_false : ¬ C10_statement := by
  intro h
  have h1 := congrArg Hkdf.prk (h .sha384 (zeros 100 ++ [1#8]) [] (by decide) (by decide))
  have e : ∀ m : Bytes, m.length < 2 ^ 53 → Sha2.sha384 m = Model.sha384 m :=
    fun m hm => (sha384_eq m (lt_of_lt_of_le hm (by norm_num))).symm
  simp only [] at h1
  unfold Spec.hkdfExtract Spec.hmac Spec.hmacKey at h1
  simp only [rfcHash] at h1
  simp only [show ¬ (zeros 100 ++ [1#8] : Bytes).length > 128 by decide, if_false] at h1
  rw [e (_ ++ []) (by simp), e _ (by simp)] at h1
  revert h1
  decide +kernel

/-- C10, extract. The salts TLS uses are at most 48 bytes long (same restriction on the salt as in C09). -/
theorem C10_hkdf_extract_partial (t : HashType) (salt ikm : Bytes) (hs : salt.length < 2 ^ 53) (hi : ikm.length < 2 ^ 52)
    (ht : t = .sha256 ∨ salt.length ≤ 64 ∨ 128 < salt.length) :
    Hkdf.extract t salt ikm = ⟨t, Spec.hkdfExtract (rfcHash t) salt ikm⟩ := by
  unfold Hkdf.extract Spec.hkdfExtract
  rw [C09_hmac_partial t salt [ikm] hs (by simpa using hi) ht]
  simp

example := C10_hkdf_extract_partial .sha384 (zeros 48) (zeros 32) (by decide) (by decide) (Or.inr (Or.inl (by decide)))

/-- C10, expand: for a pseudorandom key of at most 64 bytes (HKDF's own are 32 or 48) every output length up to 255 hash
lengths gives the RFC 5869 output, of the requested length, without counter overflow or panic; longer requests are refused. -/
theorem C10_hkdf_expand (t : HashType) (prk info : Bytes) (len : Nat) (hp : prk.length ≤ 64) (hi : info.length < 2 ^ 51) :
    (len ≤ 255 * (rfcHash t).out →
      (Hkdf.mk t prk).expand info len = .ok (some (Spec.hkdfExpand (rfcHash t) prk info len)) ∧
      (Spec.hkdfExpand (rfcHash t) prk info len).length = len) ∧
    (255 * (rfcHash t).out < len → (Hkdf.mk t prk).expand info len = .ok none) := by
  have hk : hmacKeyOk t prk.length := by cases t; exact trivial; exact Or.inl hp
  have hl : prk.length < 2 ^ 53 := lt_of_le_of_lt hp (by norm_num)
  rw [rfcHash_eq, specHash_out]
  constructor
  · intro h
    refine ⟨expand_eq ⟨t, prk⟩ info len hk hl hi (by simp only []; omega), ?_⟩
    unfold Spec.hkdfExpand
    rw [List.length_take, hkdfTs_length t prk info _ hk hl hi, specHash_out]
    have hp := size_pos t
    have h2 := Nat.div_add_mod (len + t.size - 1) t.size
    have h3 := Nat.mod_lt (len + t.size - 1) hp
    have h4 : (len + t.size - 1) / t.size * t.size = t.size * ((len + t.size - 1) / t.size) := Nat.mul_comm _ _
    omega
  · intro h
    unfold Hkdf.expand
    exact if_pos (by simp only []; omega)

example : (zeros 48).length ≤ 64 ∧ 32 ≤ 255 * (rfcHash .sha384).out ∧ 255 * (rfcHash .sha384).out < 12241 := by decide

end ATLS
