import Verif.Props.Der
import Verif.Proof.X509
/-
C93: what is taken for a signature.
-/
namespace ATLS
open ATLS.Spec ATLS.Model ATLS.WireProof ATLS.DerProof

/-- C93: only the DER encoding of two numbers is taken for a signature, and it stands for these numbers. -/
def C93_statement : Prop :=
  ∀ (buf : Bytes) (sig : Signature) (size : Nat), Signature.fromDer buf = .ok (sig, size) →
    ∃ r s : Nat, sig = ⟨s, r⟩ ∧ buf.take size = Der.ecdsaSig r s

/-- C93 does not hold: two BIT STRINGs are taken for the numbers. -/
theorem C93_false : ¬ C93_statement := by
  intro H
  obtain ⟨r, s, h1, h2⟩ := H [0x30, 6, 3, 1, 5, 3, 1, 7] ⟨7, 5⟩ 8 (by decide +kernel)
  injection h1 with e1 e2
  obtain rfl : s = 7 := by exact_mod_cast e1.symm
  obtain rfl : r = 5 := by exact_mod_cast e2.symm
  revert h2
  decide +kernel

/-- The tags the library takes for a SEQUENCE: that of DER, and those of the application and the private class with the same number. -/
def SequenceTag (tag : Byte) : Bool := tag = 0x30#8 || tag = 0x70#8 || tag = 0xf0#8

/-- The tags of elements the library reads: those of the context-specific class, and in the others the constructed ones numbered 3, 4, 12, 16, 17, 19, 22, 23, 24 and
the primitive ones numbered 2 to 6, 12, 19, 22, 23, 24. -/
def ElementTag (tag : Byte) : Bool :=
  let number := tag.toNat % 32
  let constructed := tag.toNat / 32 % 2 = 1
  tag.toNat / 64 = 2 ∨ (constructed ∧ number ∈ [3, 4, 12, 16, 17, 19, 22, 23, 24]) ∨ (¬ constructed ∧ number ∈ [2, 3, 4, 5, 6, 12, 19, 22, 23, 24])

/-- The forms of a length the library reads: one byte below 128; or a byte that gives the number of bytes that follow, of which the first 16 count, modulo 2^64. -/
def LengthField (l : Bytes) (n : Nat) : Prop :=
  (∃ b : Byte, l = [b] ∧ b.toNat < 128 ∧ n = b.toNat) ∨
  ∃ (b : Byte) (more : Bytes), l = b :: more ∧ 128 ≤ b.toNat ∧ more.length = b.toNat - 128 ∧ n = beNat (more.take 16) % 2 ^ 64

namespace DerProof

theorem element_iff : ∀ tag : Byte, (DerType.fromU8 tag).isSome = ElementTag tag := by decide +kernel

theorem sequence_iff : ∀ tag : Byte, (DerType.fromU8 tag = some (.constructed .sequence)) ↔ SequenceTag tag := by decide +kernel

/-- What `get_len` reads. -/
theorem getLen_iff {ε : Type} (d : Bytes) (c n c' : Nat) :
    getLen (ε := ε) d c = .ok (n, c') ↔ ∃ pre l rest, d = pre ++ l ++ rest ∧ pre.length = c ∧ c' = c + l.length ∧ LengthField l n := by
  have hb : ∀ b : Byte, (b >>> 7 &&& 1#8 = 1#8) ↔ 128 ≤ b.toNat := by decide +kernel
  have hm : ∀ b : Byte, 128 ≤ b.toNat → (b &&& 0x7f#8).toNat = b.toNat - 128 := by decide +kernel
  constructor
  · intro h
    unfold getLen at h
    obtain ⟨b, hi, h⟩ := Res.bind_eq_ok.1 h
    have hlt := X509Proof.idx_lt' hi
    have hget : d = d.take c ++ b :: d.drop (c + 1) := by
      unfold idx at hi
      rw [List.getElem?_eq_getElem hlt] at hi
      have hi := Res.ok.inj hi
      conv_lhs => rw [← List.take_append_drop c d, List.drop_eq_getElem_cons hlt, hi]
    have hl : (d.take c).length = c := by rw [List.length_take]; omega
    split_ifs at h with hc
    · obtain ⟨body, hs, h⟩ := Res.bind_eq_ok.1 h
      have h := Res.ok.inj h
      rw [hm b ((hb b).1 hc)] at h hs
      unfold slice at hs
      split_ifs at hs with hs2
      have hs := Res.ok.inj hs
      rw [show c + 1 + (b.toNat - 128) - (c + 1) = b.toNat - 128 by omega] at hs
      have hlen : body.length = b.toNat - 128 := by rw [← hs, List.length_take, List.length_drop]; omega
      obtain ⟨h1, h2⟩ := Prod.mk.inj h
      refine ⟨d.take c, b :: body, d.drop (c + 1 + (b.toNat - 128)), ?_, hl, ?_, Or.inr ⟨b, body, rfl, (hb b).1 hc, hlen, ?_⟩⟩
      · conv_lhs => rw [hget]
        rw [List.append_assoc, List.cons_append, ← hs, show d.drop (c + 1 + (b.toNat - 128)) = (d.drop (c + 1)).drop (b.toNat - 128) from List.drop_drop.symm, List.take_append_drop]
      · rw [← h2, List.length_cons, hlen]; omega
      · rw [← h1, X509Proof.toU128BeFill_take]
    · obtain ⟨h1, h2⟩ := Prod.mk.inj (Res.ok.inj h)
      refine ⟨d.take c, [b], d.drop (c + 1), by rw [List.append_assoc]; exact hget, hl, by rw [← h2]; rfl, Or.inl ⟨b, rfl, ?_, h1.symm⟩⟩
      by_contra hc2
      exact hc ((hb b).2 (by omega))
  · rintro ⟨pre, l, rest, rfl, rfl, rfl, hl⟩
    unfold getLen
    rcases hl with ⟨b, rfl, h1, rfl⟩ | ⟨b, body, rfl, h1, h2, rfl⟩
    · rw [List.append_assoc, show [b] ++ rest = b :: rest from rfl, idx_append _ _ _ rfl]
      simp only [Res.ok_bind]
      rw [if_neg (fun h => by have := (hb b).1 h; omega)]
      rfl
    · rw [List.append_assoc, List.cons_append, idx_append _ _ _ rfl]
      simp only [Res.ok_bind]
      rw [if_pos ((hb b).2 h1), hm b h1]
      have hs := slice_mid (ε := ε) (n := pre.length + 1) (m := pre.length + 1 + (b.toNat - 128)) (pre ++ [b]) body rest (by simp) (by rw [h2])
      rw [show pre ++ [b] ++ (body ++ rest) = pre ++ b :: (body ++ rest) by simp] at hs
      rw [hs]
      simp only [Res.ok_bind, X509Proof.toU128BeFill_take, List.length_cons, h2]
      rw [show pre.length + (b.toNat - 128 + 1) = pre.length + 1 + (b.toNat - 128) by omega]

/-- What `der_parse` reads. -/
theorem derParse_iff (d : Bytes) (c n c' : Nat) (t : EncodedForm) :
    derParse c d = .ok (n, t, c') ↔
      ∃ pre tag l rest, d = pre ++ tag :: (l ++ rest) ∧ pre.length = c ∧ c' = c + 1 + l.length ∧ LengthField l n ∧ DerType.fromU8 tag = some t ∧ n ≤ d.length := by
  constructor
  · intro h
    unfold derParse at h
    obtain ⟨tag, hi, h⟩ := Res.bind_eq_ok.1 h
    obtain ⟨t', ht, h⟩ := Res.bind_eq_ok.1 h
    obtain ⟨⟨sz, c1⟩, hg, h⟩ := Res.bind_eq_ok.1 h
    simp only [] at h
    split_ifs at h with hsz
    have h := Res.ok.inj h
    simp only [Prod.mk.injEq] at h
    obtain ⟨e1, e2, e3⟩ := h
    subst e1 e2 e3
    obtain ⟨pre, l, rest, hd, hp, hc, hl⟩ := (getLen_iff d (c + 1) sz c1).1 hg
    have htag : DerType.fromU8 tag = some t' := by
      cases hf : DerType.fromU8 tag with
      | none => rw [hf] at ht; cases ht
      | some x => rw [hf] at ht; cases ht; rfl
    refine ⟨pre.take c, tag, l, rest, ?_, by rw [List.length_take]; omega, hc, hl, htag, by omega⟩
    have hlast : pre = pre.take c ++ [tag] := by
      have hlt : c < pre.length := by omega
      unfold idx at hi
      rw [hd, List.append_assoc, List.getElem?_append_left hlt, List.getElem?_eq_getElem hlt] at hi
      have hi := Res.ok.inj hi
      conv_lhs => rw [← List.take_append_drop c pre, List.drop_eq_getElem_cons hlt, hi, List.drop_eq_nil_of_le (by omega)]
    conv_lhs => rw [hd, hlast]
    simp
  · rintro ⟨pre, tag, l, rest, hd, rfl, rfl, hl, ht, hsz⟩
    unfold derParse
    have hg := (getLen_iff (ε := ParseError) d (pre.length + 1) n (pre.length + 1 + l.length)).2 ⟨pre ++ [tag], l, rest, by rw [hd]; simp, by simp, rfl, hl⟩
    rw [hg]
    have hi : idx (ε := ParseError) d pre.length = .ok tag := by rw [hd]; exact idx_append _ _ _ rfl
    rw [hi]
    simp only [Res.ok_bind, ht, Res.okOr]
    rw [if_neg (by omega)]

theorem element_some (tag : Byte) : (∃ t, DerType.fromU8 tag = some t) ↔ ElementTag tag := by
  rw [← element_iff, Option.isSome_iff_exists]

theorem mapErr_ok {ε ε' α : Type} {r : Res ε α} {f : ε → ε'} {a : α} : r.mapErr f = .ok a ↔ r = .ok a := by
  cases r <;> simp [Res.mapErr]

end DerProof

/-- The part of C93 that holds, exactly: what is taken for a signature is a header with the tag of a SEQUENCE and any length up to that of the input, and two elements with
the tags `ElementTag`, whose contents are the numbers; whatever follows is ignored. Missing: that it is DER (`C93_false`). -/
theorem C93_exact_partial (buf : Bytes) (sig : Signature) (size : Nat) :
    Signature.fromDer buf = .ok (sig, size) ↔
      ∃ (t0 t1 t2 : Byte) (l0 l1 l2 b1 b2 rest : Bytes) (n0 : Nat),
        buf = t0 :: l0 ++ (t1 :: l1 ++ b1) ++ (t2 :: l2 ++ b2) ++ rest ∧
        SequenceTag t0 ∧ LengthField l0 n0 ∧ n0 ≤ buf.length ∧
        ElementTag t1 ∧ LengthField l1 b1.length ∧ ElementTag t2 ∧ LengthField l2 b2.length ∧
        sig = ⟨(beNat b2 : Nat), (beNat b1 : Nat)⟩ ∧ size = buf.length - rest.length := by
  constructor
  · intro h
    unfold Signature.fromDer at h
    obtain ⟨⟨n0, f0, c0⟩, h0, h⟩ := Res.bind_eq_ok.1 h
    simp only [] at h
    split_ifs at h with hs
    rw [not_not] at hs
    subst hs
    obtain ⟨⟨n1, f1, c1⟩, h1, h⟩ := Res.bind_eq_ok.1 h
    obtain ⟨b1, s1, h⟩ := Res.bind_eq_ok.1 h
    obtain ⟨⟨n2, f2, c2⟩, h2, h⟩ := Res.bind_eq_ok.1 h
    obtain ⟨b2, s2, h⟩ := Res.bind_eq_ok.1 h
    have h := Res.ok.inj h
    obtain ⟨pre0, t0, l0, r0, e0, p0, rfl, hl0, ht0, hn0⟩ := (derParse_iff _ _ _ _ _).1 (mapErr_ok.1 h0)
    obtain ⟨pre1, t1, l1, r1, e1, p1, rfl, hl1, ht1, hn1⟩ := (derParse_iff _ _ _ _ _).1 (mapErr_ok.1 h1)
    obtain ⟨pre2, t2, l2, r2, e2, p2, rfl, hl2, ht2, hn2⟩ := (derParse_iff _ _ _ _ _).1 (mapErr_ok.1 h2)
    obtain rfl := List.length_eq_zero_iff.1 p0
    rw [List.nil_append] at e0
    unfold slice at s1 s2
    split_ifs at s1 s2 with q1 q2
    have s1 := Res.ok.inj s1
    have s2 := Res.ok.inj s2
    obtain ⟨rfl, hr0⟩ := List.append_inj (e1.symm.trans e0 : pre1 ++ t1 :: (l1 ++ r1) = (t0 :: l0) ++ r0) (by rw [p1]; simp; omega)
    have f1 : buf = (t0 :: l0 ++ t1 :: l1) ++ r1 := by rw [e1]; simp
    have g1 : buf.drop (0 + 1 + l0.length + 1 + l1.length) = r1 := by
      conv_lhs => rw [f1]
      exact List.drop_left' (by simp; omega)
    rw [g1, show 0 + 1 + l0.length + 1 + l1.length + n1 - (0 + 1 + l0.length + 1 + l1.length) = n1 by omega] at s1
    have k1 := congrArg List.length f1
    simp only [List.length_append, List.length_cons] at k1
    have m1 : b1.length = n1 := by rw [← s1, List.length_take]; omega
    have f1' : buf = (t0 :: l0 ++ (t1 :: l1 ++ b1)) ++ r1.drop n1 := by
      rw [f1, ← s1]
      simp
    obtain ⟨rfl, hr1⟩ := List.append_inj (e2.symm.trans f1') (by rw [p2]; simp; omega)
    have f2 : buf = (t0 :: l0 ++ (t1 :: l1 ++ b1) ++ t2 :: l2) ++ r2 := by rw [e2]; simp
    have g2 : buf.drop (0 + 1 + l0.length + 1 + l1.length + n1 + 1 + l2.length) = r2 := by
      conv_lhs => rw [f2]
      exact List.drop_left' (by simp; omega)
    rw [g2, show 0 + 1 + l0.length + 1 + l1.length + n1 + 1 + l2.length + n2 - (0 + 1 + l0.length + 1 + l1.length + n1 + 1 + l2.length) = n2 by omega] at s2
    have k2 := congrArg List.length f2
    simp only [List.length_append, List.length_cons] at k2
    have m2 : b2.length = n2 := by rw [← s2, List.length_take]; omega
    simp only [Prod.mk.injEq, toIbigBe_eq] at h
    refine ⟨t0, t1, t2, l0, l1, l2, b1, b2, r2.drop n2, n0, ?_, (sequence_iff t0).1 ht0, hl0, hn0, (element_some t1).1 ⟨_, ht1⟩, by rw [m1]; exact hl1,
      (element_some t2).1 ⟨_, ht2⟩, by rw [m2]; exact hl2, h.1.symm, ?_⟩
    · rw [f2, ← s2]
      simp
    · rw [← h.2, List.length_drop]
      omega
  · rintro ⟨t0, t1, t2, l0, l1, l2, b1, b2, rest, n0, hbuf, ht0, hl0, hn0, ht1, hl1, ht2, hl2, rfl, rfl⟩
    obtain ⟨f1, ht1⟩ := (element_some t1).2 ht1
    obtain ⟨f2, ht2⟩ := (element_some t2).2 ht2
    have hlen := congrArg List.length hbuf
    simp only [List.length_append, List.length_cons] at hlen
    have d0 := (derParse_iff buf 0 n0 (1 + l0.length) _).2 ⟨[], t0, l0, (t1 :: l1 ++ b1) ++ (t2 :: l2 ++ b2) ++ rest, by rw [hbuf]; simp, rfl, by omega, hl0, (sequence_iff t0).2 ht0, hn0⟩
    have d1 := (derParse_iff buf (1 + l0.length) b1.length (1 + l0.length + 1 + l1.length) f1).2
      ⟨t0 :: l0, t1, l1, b1 ++ (t2 :: l2 ++ b2) ++ rest, by rw [hbuf]; simp, by simp; omega, rfl, hl1, ht1, by omega⟩
    have d2 := (derParse_iff buf (1 + l0.length + 1 + l1.length + b1.length) b2.length (1 + l0.length + 1 + l1.length + b1.length + 1 + l2.length) f2).2
      ⟨t0 :: l0 ++ (t1 :: l1 ++ b1), t2, l2, b2 ++ rest, by rw [hbuf]; simp, by simp; omega, rfl, hl2, ht2, by omega⟩
    have s1 : slice (ε := TlsError) buf (1 + l0.length + 1 + l1.length) (1 + l0.length + 1 + l1.length + b1.length) = .ok b1 := by
      have := slice_mid (ε := TlsError) (n := 1 + l0.length + 1 + l1.length) (m := 1 + l0.length + 1 + l1.length + b1.length) (t0 :: l0 ++ (t1 :: l1)) b1
        ((t2 :: l2 ++ b2) ++ rest) (by simp; omega) rfl
      rw [hbuf]
      simpa using this
    have s2 : slice (ε := TlsError) buf (1 + l0.length + 1 + l1.length + b1.length + 1 + l2.length) (1 + l0.length + 1 + l1.length + b1.length + 1 + l2.length + b2.length) =
        .ok b2 := by
      have := slice_mid (ε := TlsError) (n := 1 + l0.length + 1 + l1.length + b1.length + 1 + l2.length)
        (m := 1 + l0.length + 1 + l1.length + b1.length + 1 + l2.length + b2.length) (t0 :: l0 ++ (t1 :: l1 ++ b1) ++ (t2 :: l2)) b2 rest (by simp; omega) rfl
      rw [hbuf]
      simpa using this
    unfold Signature.fromDer
    simp only [d0, d1, d2, s1, s2, Res.mapErr, Res.ok_bind, ne_eq, not_true_eq_false, if_false, toIbigBe_eq]
    congr 2
    omega

/-- Of DER's own types, an INTEGER is read; a constructed INTEGER, OBJECT IDENTIFIER or NULL, a BOOLEAN and a primitive SEQUENCE or SET are refused. -/
example : ElementTag 0x02#8 = true ∧ ElementTag 0x03#8 = true ∧ ElementTag 0x22#8 = false ∧ ElementTag 0x26#8 = false ∧ ElementTag 0x25#8 = false ∧ ElementTag 0x01#8 = false ∧
    ElementTag 0x10#8 = false ∧ ElementTag 0x11#8 = false := by decide +kernel

example : Signature.fromDer [0x30, 6, 0x02, 1, 5, 0x02, 1, 7] = .ok (⟨7, 5⟩, 8) ∧ Signature.fromDer [0x30, 6, 0x22, 1, 5, 0x02, 1, 7] = .err .badCertificate := by decide +kernel

end ATLS
