import Verif.Proof.Base64
import Verif.Proof.Bytes
/-
C01-C05: Base64, hexadecimal, integer and PEM conversions.
-/
namespace ATLS
open ATLS.Spec ATLS.Model

/-! ### C01 -/

/-- C01: the encoder produces RFC 4648 text, and decoding it gives back the bytes, for every byte string. -/
theorem C01_base64_roundtrip (l : Bytes) :
    b64Encode l = Spec.Base64.encode l ∧ b64Decode (b64Encode l) = .ok (some l) :=
  ⟨b64Encode_eq_spec l, b64_roundtrip l⟩

example : b64Encode (ascii "ab") = "YWI=".toList ∧ b64Decode "YWI=".toList = .ok (some (ascii "ab")) := by
  decide +kernel

/-! ### C02 -/

/-- The full claim of C02: text is decoded to `b` iff it is the Base64 encoding of `b`; everything else is refused without a panic. -/
def C02_statement : Prop :=
  ∀ s : List Char, (∃ b, b64Decode s = .ok (some b) ∧ Spec.Base64.encode b = s) ∨
    ((∀ b, Spec.Base64.encode b ≠ s) ∧ b64Decode s = .ok none)

/-- C02 is false of the code: a character outside the alphabet is read as `A`, padding in the middle drops bytes at the end,
and a character above `z` panics. -/
theorem C02_false : ¬ C02_statement ∧
    b64Decode "AA!A".toList = .ok (some [0, 0, 0]) ∧ b64Decode "AA=A".toList = .ok (some [0, 0]) ∧
    b64Decode "{AAA".toList = .panic := by
  have h1 : b64Decode "AA!A".toList = .ok (some [0, 0, 0]) := by decide +kernel
  refine ⟨?_, h1, by decide +kernel, by decide +kernel⟩
  intro h
  rcases h "AA!A".toList with ⟨b, hb, he⟩ | ⟨-, hn⟩
  · rw [h1] at hb
    simp only [Res.ok.injEq, Option.some.injEq] at hb
    subst hb
    revert he; decide +kernel
  · rw [h1] at hn; simp at hn

/-- What holds instead of C02. Missing: characters outside the alphabet and misplaced padding are not refused (`C02_false`).
Proved: a text whose length is not a multiple of four is refused; unpadded text over the alphabet is decoded to the bytes whose
encoding it is; the decoder panics exactly when some character is above `z` (and the length is a multiple of four). -/
theorem C02_base64_decode_partial (s : List Char) :
    ((s.map Char.utf8Size).sum % 4 ≠ 0 → b64Decode s = .ok none) ∧
    (s.length % 4 = 0 → (∀ c ∈ s, c ∈ Spec.Base64.alphabet) →
      ∃ b, b64Decode s = .ok (some b) ∧ Spec.Base64.encode b = s) ∧
    (b64Decode s = .panic ↔ (s.map Char.utf8Size).sum % 4 = 0 ∧ ∃ c ∈ s, 'z'.toNat < c.toNat) := by
  refine ⟨?_, ?_, b64Decode_panic_iff s⟩
  · intro h
    unfold b64Decode
    exact if_pos h
  · intro hl hs
    obtain ⟨b, h1, h2⟩ := b64Decode_alpha s hl (by rw [← alphabet_eq]; exact hs)
    exact ⟨b, h1, by rw [← b64Encode_eq_spec]; exact h2⟩

example : ("TWFu".toList.length % 4 = 0 ∧ ∀ c ∈ "TWFu".toList, c ∈ Spec.Base64.alphabet) ∧
    b64Decode "TWFu".toList = .ok (some (ascii "Man")) := by decide +kernel

/-! ### C03 -/

theorem hexTable : ∀ n : Fin 16, hexVal (hexDigit n.1) = some n.1 := by decide +kernel

/-- C03: parsing the printed hexadecimal text gives the byte string back, and the text has two characters per byte. -/
theorem C03_hex_roundtrip {ε : Type} (l : Bytes) :
    fromHex (ε := ε) (toHex l) = .ok l ∧ (toHex l).length = 2 * l.length := by
  have hlen : (toHex l).length = 2 * l.length := by
    induction l with
    | nil => rfl
    | cons b l ih => simp only [toHex, List.flatMap_cons, List.length_append, List.length_cons, List.length_nil] at *; omega
  refine ⟨?_, hlen⟩
  unfold fromHex
  rw [if_pos (by omega)]
  clear hlen
  induction l with
  | nil => rfl
  | cons b l ih =>
    have hb := b.isLt
    have h1 := hexTable ⟨b.toNat / 16, by omega⟩
    have h2 := hexTable ⟨b.toNat % 16, by omega⟩
    simp only [toHex, List.flatMap_cons, List.cons_append, List.nil_append] at *
    rw [fromHexPairs]
    simp only [h1, h2]
    rw [ih]
    simp only [Res.ok_bind]
    congr 2
    apply BitVec.eq_of_toNat_eq
    rw [BitVec.toNat_ofNat]; omega

example : toHex [0x0f#8, 0xa0#8] = ascii "0fa0" ∧ fromHex (ε := Empty) (ascii "0fa0") = .ok [0x0f#8, 0xa0#8] := by
  decide +kernel

/-! ### C04 -/

/-- The full claim of C04 for the 32-byte big-endian conversion: the bytes have the value of the integer. -/
def C04_statement_be32 : Prop :=
  ∀ n : Nat, n < 2 ^ 256 → ∃ b, ibigTo32bytes (ε := Empty) n .big = .ok b ∧ beNat b = n

/-- The 32-byte big-endian conversion does not preserve the value: small numbers are written at the wrong end. -/
theorem C04_be32_false : ¬ C04_statement_be32 ∧
    ibigTo32bytes (ε := Empty) 1 .big = .ok (1#8 :: zeros 31) := by
  have h1 : ibigTo32bytes (ε := Empty) 1 .big = .ok (1#8 :: zeros 31) := by decide +kernel
  refine ⟨?_, h1⟩
  intro h
  obtain ⟨b, hb, hv⟩ := h 1 (by norm_num)
  have h1' : ibigTo32bytes (ε := Empty) ((1 : Nat) : Int) .big = .ok (1#8 :: zeros 31) := h1
  rw [h1'] at hb
  simp only [Res.ok.injEq] at hb
  subst hb
  revert hv; decide +kernel

/-- C04 except for 32-byte big-endian output of integers below `2^248` (see `C04_be32_false`): the byte string to integer
conversions give the positional value; the minimal conversions and the 32-byte little-endian conversion preserve the value; the
32-byte big-endian conversion preserves it for `2^248 ≤ n < 2^256`, and in general yields the value shifted to the left end. -/
theorem C04_int_bytes_partial {ε : Type} :
    (∀ b : Bytes, toIbigLe b = leNat b ∧ toIbigBe b = beNat b) ∧
    (∀ n : Nat, ∃ v w, ibigToVec (ε := ε) n .little = .ok v ∧ ibigToVec (ε := ε) n .big = .ok w ∧
      leNat v = n ∧ beNat w = n ∧ w = v.reverse ∧ (∀ k, n < 256 ^ k → v.length ≤ k)) ∧
    (∀ n : Nat, n < 2 ^ 256 → ∃ v, ibigTo32bytes (ε := ε) n .little = .ok v ∧ v.length = 32 ∧ leNat v = n) ∧
    (∀ n : Nat, 2 ^ 248 ≤ n → n < 2 ^ 256 → ∃ v, ibigTo32bytes (ε := ε) n .big = .ok v ∧ v.length = 32 ∧ beNat v = n) ∧
    (∀ n : Nat, n < 2 ^ 256 → ∃ v k, ibigTo32bytes (ε := ε) n .big = .ok v ∧ v.length = 32 ∧ beNat v = n * 256 ^ k ∧
      (∀ j, n < 256 ^ j → 32 ≤ j + k)) := by
  refine ⟨fun b => ⟨toIbigLe_eq b, toIbigBe_eq b⟩, ?_, ?_, ?_, ?_⟩
  · intro n
    refine ⟨ubigLe n, (ubigLe n).reverse, ?_, ?_, leNat_ubigLe n, ?_, rfl, fun k hk => ubigLe_length_le hk⟩
    · simp [ibigToVec]
    · simp [ibigToVec]
    · rw [← leNat_eq_beNat_reverse, leNat_ubigLe]
  · intro n hn
    have hn' : n < 256 ^ 32 := by norm_num at hn ⊢; exact hn
    exact ⟨_, ibigTo32_little n hn', by simp, by rw [leNat_leBytes, Nat.mod_eq_of_lt hn']⟩
  · intro n hn hn2
    have hn' : n < 256 ^ 32 := by norm_num at hn2 ⊢; exact hn2
    exact ⟨_, ibigTo32_big_full n hn' (by norm_num at hn ⊢; exact hn), by simp, by rw [beNat_beBytes, Nat.mod_eq_of_lt hn']⟩
  · intro n hn
    have hn' : n < 256 ^ 32 := by norm_num at hn ⊢; exact hn
    refine ⟨_, 32 - (ubigLe n).length, ibigTo32_big n hn', by simp, ?_, ?_⟩
    · rw [beNat_beBytes, Nat.mod_eq_of_lt]
      have h1 : n < 256 ^ (ubigLe n).length := by
        conv_lhs => rw [← leNat_ubigLe n]
        exact leNat_lt _
      have h2 := ubigLe_length_le hn'
      calc n * 256 ^ (32 - (ubigLe n).length) < 256 ^ (ubigLe n).length * 256 ^ (32 - (ubigLe n).length) :=
            Nat.mul_lt_mul_of_pos_right h1 (Nat.pow_pos (by decide))
        _ = 256 ^ 32 := by rw [← Nat.pow_add]; congr 1; omega
    · intro j hj
      have := ubigLe_length_le hj
      omega

example : ∃ v, ibigTo32bytes (ε := Empty) ((2 ^ 250 + 7 : Nat) : Int) .big = .ok v ∧ v.length = 32 ∧ beNat v = 2 ^ 250 + 7 :=
  C04_int_bytes_partial.2.2.2.1 _ (by norm_num) (by norm_num)

/-! ### C05 -/

/-- C05: a file made of any number (at least one) of PEM blocks, with any titles, payloads and line widths, explanatory lines
before the blocks and after the last one, is parsed to exactly these titles and payloads (a later block replaces an earlier one with the
same title, as `lookup` takes the first entry of this newest-first list). -/
theorem C05_pem_roundtrip (bs : List PemBlock) (hne : bs ≠ []) (tail : List (List Char))
    (htail : ∀ l ∈ tail, '\n' ∉ l ∧ "-----BEGIN".toList.isPrefixOf l = false)
    (hb : ∀ b ∈ bs, b.WellFormed ∧ b.lines.flatten = Spec.Base64.encode b.payload) :
    pemContent (renderFile bs tail) = .ok (bs.map fun b => (b.title, b.payload)).reverse :=
  pem_roundtrip bs hne tail htail (fun b h => ⟨(hb b h).1, by rw [b64Encode_eq_spec]; exact (hb b h).2⟩)

/-- C05 for a single block: looking up its title gives its payload. -/
theorem C05_pem_lookup (b : PemBlock) (h : b.WellFormed) (hp : b.lines.flatten = Spec.Base64.encode b.payload) :
    ∃ m, pemContent (renderFile [b] []) = .ok m ∧ m.lookup b.title = some b.payload :=
  ⟨_, C05_pem_roundtrip [b] (by simp) [] (by simp) (by simpa using ⟨h, hp⟩), by simp⟩

example :
    let b : PemBlock := ⟨["note".toList], "KEY".toList, ["TW".toList, "Fu".toList], ascii "Man"⟩
    b.WellFormed ∧ b.lines.flatten = Spec.Base64.encode b.payload ∧
    renderFile [b] [] = "note\n-----BEGIN KEY-----\nTW\nFu\n-----END KEY-----\n".toList := by
  refine ⟨⟨by decide, by decide, by decide⟩, by decide +kernel, by decide +kernel⟩

end ATLS
