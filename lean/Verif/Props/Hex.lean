import Verif.Props.Codec
import Verif.Spec.Hex
/-
C03: which text is read as hexadecimal, and what is printed.
-/
namespace ATLS
open ATLS.Spec ATLS.Model

/-- As `Hex.IsText`; a plus sign and a digit is read as well. -/
inductive ReadAsHex : Bytes → Bytes → Prop
  | nil : ReadAsHex [] []
  | cons {a b v : Byte} {text l : Bytes} : Hex.value a = some (v.toNat / 16) → Hex.value b = some (v.toNat % 16) → ReadAsHex text l → ReadAsHex (a :: b :: text) (v :: l)
  | plus {b v : Byte} {text l : Bytes} : Hex.value b = some v.toNat → ReadAsHex text l → ReadAsHex (0x2b#8 :: b :: text) (v :: l)

namespace HexProof

theorem value_eq : ∀ c : Byte, hexVal c = Hex.value c := by decide +kernel

theorem value_lt : ∀ c : Byte, ∀ n, Hex.value c = some n → n < 16 := by
  have : ∀ c : Byte, ∀ n ∈ Hex.value c, n < 16 := by decide +kernel
  exact this

theorem value_plus : Hex.value 0x2b#8 = none := by decide +kernel

theorem pairs_iff {ε : Type} (l : Bytes) : ∀ text : Bytes, fromHexPairs (ε := ε) text = .ok l ↔ ReadAsHex text l := by
  induction l with
  | nil =>
    intro text
    match text with
    | [] => exact ⟨fun _ => .nil, fun _ => rfl⟩
    | [a] => exact ⟨fun h => (by cases h), fun h => (by cases h)⟩
    | a :: b :: rest =>
      constructor
      · intro h
        unfold fromHexPairs at h
        simp only [] at h
        split at h
        · obtain ⟨r, _, h⟩ := Res.bind_eq_ok.1 h
          cases h
        · cases h
      · intro h
        cases h
  | cons v l ih =>
    intro text
    match text with
    | [] => exact ⟨fun h => (by cases h), fun h => (by cases h)⟩
    | [a] => exact ⟨fun h => (by cases h), fun h => (by cases h)⟩
    | a :: b :: rest =>
      constructor
      · intro h
        unfold fromHexPairs at h
        simp only [value_eq] at h
        split at h
        · rename_i w hw
          obtain ⟨r, hr, h⟩ := Res.bind_eq_ok.1 h
          have h := Res.ok.inj h
          obtain ⟨e1, rfl⟩ := List.cons.inj h
          have hrest := (ih rest).1 hr
          split at hw
          · rename_i x y hx hy
            have lx := value_lt a x hx
            have ly := value_lt b y hy
            obtain rfl := Option.some.inj hw
            have ev : v.toNat = x * 16 + y := by rw [← e1]; simp; omega
            exact .cons (by rw [hx, ev]; congr 1; omega) (by rw [hy, ev]; congr 1; omega) hrest
          · rename_i y hx hy
            split_ifs at hw with hp
            subst hp
            obtain rfl := Option.some.inj hw
            have ly := value_lt b y hy
            have ev : v.toNat = y := by rw [← e1]; simp; omega
            exact .plus (by rw [hy, ev]) hrest
          · cases hw
        · cases h
      · intro h
        unfold fromHexPairs
        simp only [value_eq]
        cases h with
        | cons h1 h2 h3 =>
          rw [h1, h2]
          simp only [(ih rest).2 h3, Res.ok_bind]
          rw [show v.toNat / 16 * 16 + v.toNat % 16 = v.toNat by omega, BitVec.ofNat_toNat, BitVec.setWidth_eq]
        | plus h1 h2 =>
          rw [h1, value_plus]
          simp only [if_true, (ih rest).2 h2, Res.ok_bind]
          rw [BitVec.ofNat_toNat, BitVec.setWidth_eq]

theorem text_even {text l : Bytes} (h : ReadAsHex text l) : text.length = 2 * l.length := by
  induction h with
  | nil => rfl
  | cons _ _ _ ih => simp only [List.length_cons, ih]; omega
  | plus _ _ ih => simp only [List.length_cons, ih]; omega

theorem pairs_never_err {ε : Type} (n : Nat) : ∀ text : Bytes, text.length ≤ n → ∀ e, fromHexPairs (ε := ε) text ≠ .err e := by
  induction n with
  | zero => intro text h e; match text with | [] => intro h; cases h
  | succ n ih =>
    intro text h e
    match text with
    | [] => intro h; cases h
    | [a] => intro h; cases h
    | a :: b :: rest =>
      unfold fromHexPairs
      simp only []
      split
      · intro hb
        cases hr : fromHexPairs (ε := ε) rest with
        | ok r => rw [hr] at hb; cases hb
        | err e' => exact ih rest (by simp only [List.length_cons] at h; omega) e' hr
        | panic => rw [hr] at hb; cases hb
      · intro h; cases h

end HexProof

open HexProof

/-- C03, exactly: a text is read as a byte string if and only if it is hexadecimal text for it, in lower or upper case (or has a plus sign for a digit 0 in front of another);
every other text is a panic. -/
theorem C03_reads {ε : Type} (text l : Bytes) :
    (fromHex (ε := ε) text = .ok l ↔ ReadAsHex text l) ∧ ((¬ ∃ l, ReadAsHex text l) → fromHex (ε := ε) text = .panic) := by
  have h1 : ∀ l, fromHex (ε := ε) text = .ok l ↔ ReadAsHex text l := by
    intro l
    unfold fromHex
    split_ifs with he
    · exact pairs_iff l text
    · exact ⟨fun h => (by cases h), fun h => (by have := text_even h; omega)⟩
  refine ⟨h1 l, fun hn => ?_⟩
  cases hr : fromHex (ε := ε) text with
  | ok l' => exact absurd ⟨l', (h1 l').1 hr⟩ hn
  | err e =>
    unfold fromHex at hr
    split_ifs at hr
    exact absurd hr (pairs_never_err _ text le_rfl e)
  | panic => rfl

/-- C03: the text printed is hexadecimal text, without capitals. -/
theorem C03_prints (l : Bytes) : Hex.IsText (toHex l) l ∧ ∀ c ∈ toHex l, c ∈ ascii "0123456789abcdef" := by
  have hd : ∀ n : Fin 16, Hex.value (hexDigit n.1) = some n.1 ∧ hexDigit n.1 ∈ ascii "0123456789abcdef" := by decide +kernel
  induction l with
  | nil => exact ⟨.nil, fun c h => by cases h⟩
  | cons v l ih =>
    have e : toHex (v :: l) = hexDigit (v.toNat / 16) :: hexDigit (v.toNat % 16) :: toHex l := rfl
    have hv := v.isLt
    obtain ⟨a1, a2⟩ := hd ⟨v.toNat / 16, by omega⟩
    obtain ⟨b1, b2⟩ := hd ⟨v.toNat % 16, by omega⟩
    rw [e]
    refine ⟨.cons a1 b1 ih.1, fun c hc => ?_⟩
    rcases List.mem_cons.1 hc with rfl | hc
    · exact a2
    rcases List.mem_cons.1 hc with rfl | hc
    · exact b2
    exact ih.2 c hc

example : ReadAsHex (ascii "aBF0") [0xab, 0xf0] ∧ toHex [0xab, 0xf0] = ascii "abf0" ∧ fromHex (ε := Empty) (ascii "aBF0") = .ok [0xab, 0xf0] :=
  ⟨.cons (by decide +kernel) (by decide +kernel) (.cons (by decide +kernel) (by decide +kernel) .nil), by decide +kernel, by decide +kernel⟩

end ATLS
