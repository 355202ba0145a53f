import Verif.Model.X509
import Verif.Spec.X509
import Verif.Proof.Der
import Verif.Props.Time
/-
Proofs about the certificate parser: what one DER element does to the builder.
-/
namespace ATLS.X509Proof
open ATLS ATLS.Spec ATLS.Model ATLS.WireProof ATLS.DerProof

/-- Parsing the element `e` in state `st`, wherever it stands in the input, turns builder `b` into `b'` and consumes exactly `e`. -/
def Steps (st : ParsingState) (e : Bytes) (b b' : X509Builder) : Prop :=
  ∀ fuel, e.length ≤ fuel → ∀ pre rest : Bytes, parse fuel b st (pre ++ (e ++ rest)) pre.length = .ok (b', pre.length + e.length)

/-- The same for a sequence of elements. -/
def StepsL (st : ParsingState) (body : Bytes) (b b' : X509Builder) : Prop :=
  ∀ fuel, body.length + 1 ≤ fuel → ∀ pre rest : Bytes,
    parseWhile fuel b st (pre ++ (body ++ rest)) pre.length (body.length + pre.length) = .ok (b', pre.length + body.length)

theorem StepsL.nil (st : ParsingState) (b : X509Builder) : StepsL st [] b b := by
  intro fuel hf pre rest
  obtain ⟨f, rfl⟩ : ∃ f, fuel = f + 1 := ⟨fuel - 1, by simp at hf; omega⟩
  simp [parseWhile]

theorem StepsL.cons {st : ParsingState} {e body : Bytes} {b b1 b2 : X509Builder} (he : e ≠ []) (h1 : Steps st e b b1) (h2 : StepsL st body b1 b2) :
    StepsL st (e ++ body) b b2 := by
  intro fuel hf pre rest
  have hpos : 0 < e.length := List.length_pos_iff.2 he
  rw [List.length_append] at hf
  obtain ⟨f, rfl⟩ : ∃ f, fuel = f + 1 := ⟨fuel - 1, by omega⟩
  rw [parseWhile, if_pos (by rw [List.length_append]; omega)]
  have e1 := h1 f (by omega) pre (body ++ rest)
  have e2 := h2 f (by omega) (pre ++ e) rest
  rw [List.append_assoc e body rest, e1]
  simp only [Res.ok_bind]
  rw [List.append_assoc, List.length_append] at e2
  rw [List.length_append, show e.length + body.length + pre.length = body.length + (pre.length + e.length) by omega, e2,
    Nat.add_assoc]

theorem StepsL.single {st : ParsingState} {e : Bytes} {b b1 : X509Builder} (he : e ≠ []) (h1 : Steps st e b b1) : StepsL st e b b1 := by
  have := StepsL.cons he h1 (StepsL.nil st b1)
  rwa [List.append_nil] at this

theorem tlv_ne (tag : Byte) (body : Bytes) : Der.tlv tag body ≠ [] := by simp [Der.tlv]

/-- Set-up of one `parse` call on a DER element. -/
theorem steps_intro {st : ParsingState} {tag : Byte} {body : Bytes} {b b' : X509Builder} (hb : body.length < 2 ^ 32) (form : EncodedForm)
    (hform : DerType.fromU8 tag = some form)
    (h : ∀ fuel, body.length + 1 ≤ fuel → ∀ pre rest : Bytes,
      (∀ d c, d = pre ++ (Der.tlv tag body ++ rest) → c = pre.length + headLen body →
        derParse pre.length d = .ok (body.length, form, c) → slice (ε := ParseError) d c (c + body.length) = .ok body →
        d = (pre ++ tag :: Der.length body.length) ++ (body ++ rest) → c = (pre ++ tag :: Der.length body.length).length →
        parse (fuel + 1) b st d pre.length = .ok (b', c + body.length))) :
    Steps st (Der.tlv tag body) b b' := by
  intro fuel hf pre rest
  rw [tlv_length] at hf ⊢
  have hh : 2 ≤ headLen body := by
    unfold headLen Der.length
    split_ifs <;> simp
  obtain ⟨f, rfl⟩ : ∃ f, fuel = f + 1 := ⟨fuel - 1, by omega⟩
  have := h f (by omega) pre rest _ _ rfl rfl (derParse_tlv pre rest body tag form rfl hform hb) (slice_tlv pre rest body tag rfl rfl)
    (by simp [Der.tlv]) (by simp [headLen]; omega)
  rw [this, Nat.add_assoc]

theorem steps_sequence {st : ParsingState} {body : Bytes} {b b' : X509Builder} (hb : body.length < 2 ^ 32)
    (h : StepsL st body (b.noteSequence body.length) b') : Steps st (Der.sequence body) b b' := by
  refine steps_intro hb (.constructed .sequence) (by decide) ?_
  intro fuel hf pre rest d c hd hc h1 h2 h3 h4
  rw [parse, h1]
  simp only [Res.ok_bind, h2]
  have := h fuel hf (pre ++ 0x30#8 :: Der.length body.length) rest
  rw [← h3, ← h4] at this
  exact this

theorem steps_set {st : ParsingState} {body : Bytes} {b b' : X509Builder} (hb : body.length < 2 ^ 32)
    (h : Steps .inSet body b b') : Steps st (Der.tlv 0x31#8 body) b b' := by
  refine steps_intro hb (.constructed .set) (by decide) ?_
  intro fuel hf pre rest d c hd hc h1 h2 h3 h4
  rw [parse, h1]
  simp only [Res.ok_bind, h2]
  have := h fuel (by omega) (pre ++ 0x31#8 :: Der.length body.length) rest
  rw [← h3, ← h4] at this
  exact this

theorem steps_integer (st : ParsingState) (n : Nat) (b : X509Builder) (hb : Der.intLen n < 2 ^ 32) :
    Steps st (Der.integer n) b (b.addInteger n) := by
  refine steps_intro (by rw [beBytes_length]; exact hb) (.primitive .integer) (by decide) ?_
  intro fuel hf pre rest d c hd hc h1 h2 h3 h4
  rw [parse, h1]
  simp only [Res.ok_bind, h2]
  rw [toIbigBe_eq, beNat_beBytes, Nat.mod_eq_of_lt (lt_pow_intLen n)]

theorem steps_oid_set (o : Bytes) (b : X509Builder) (hb : o.length < 2 ^ 32) :
    Steps .inSet (X509.objectIdentifier o) b (b.addNameOid o) := by
  refine steps_intro hb (.primitive .objectIdentifier) (by decide) ?_
  intro fuel hf pre rest d c hd hc h1 h2 h3 h4
  rw [parse, h1]
  simp only [Res.ok_bind, h2]

theorem steps_oid (o : Bytes) (b b' : X509Builder) (hb : o.length < 2 ^ 32) (h : b.addOid o = .ok b') :
    Steps .init (X509.objectIdentifier o) b b' := by
  refine steps_intro hb (.primitive .objectIdentifier) (by decide) ?_
  intro fuel hf pre rest d c hd hc h1 h2 h3 h4
  rw [parse, h1]
  simp only [Res.ok_bind, h2, h]

theorem steps_string (st : ParsingState) (tag : Byte) (v : Bytes) (b b' : X509Builder) (hb : v.length < 2 ^ 32)
    (ht : tag = 0x0c#8 ∨ tag = 0x13#8 ∨ tag = 0x16#8) (h : b.addString v = .ok b') : Steps st (Der.tlv tag v) b b' := by
  rcases ht with rfl | rfl | rfl
  · refine steps_intro hb (.primitive .utf8String) (by decide) ?_
    intro fuel hf pre rest d c hd hc h1 h2 h3 h4
    rw [parse, h1]
    simp only [Res.ok_bind, h2, h]
  · refine steps_intro hb (.primitive .printableString) (by decide) ?_
    intro fuel hf pre rest d c hd hc h1 h2 h3 h4
    rw [parse, h1]
    simp only [Res.ok_bind, h2, h]
  · refine steps_intro hb (.primitive .utf8String) (by decide) ?_
    intro fuel hf pre rest d c hd hc h1 h2 h3 h4
    rw [parse, h1]
    simp only [Res.ok_bind, h2, h]

theorem steps_time (st : ParsingState) (v : Bytes) (b b' : X509Builder) (hb : v.length < 2 ^ 32) (h : b.addTime v = .ok b') :
    Steps st (Der.tlv 0x17#8 v) b b' := by
  refine steps_intro hb (.primitive .utcTime) (by decide) ?_
  intro fuel hf pre rest d c hd hc h1 h2 h3 h4
  rw [parse, h1]
  simp only [Res.ok_bind, h2, h]

theorem steps_version (st : ParsingState) (v : Nat) (w : Version) (b : X509Builder) (hv : v < 128) (hw : Version.parse [BitVec.ofNat 8 v] = .ok w) :
    Steps st (Der.tlv 0xa0#8 (Der.integer v)) b { b with version := some w } := by
  have hi : Der.integer v = [2#8, 1#8, BitVec.ofNat 8 v] := by
    have : Der.intLen v = 1 := by
      unfold Der.intLen
      have : v.log2 < 7 ∨ v = 0 := by
        by_cases h : v = 0
        · exact Or.inr h
        · exact Or.inl ((Nat.log2_lt h).2 (by omega))
      rcases this with h | h
      · omega
      · subst h; decide
    unfold Der.integer
    rw [this]
    simp [Der.tlv, Der.length, beBytes]
  rw [hi]
  refine steps_intro (by simp) (.constructed (.contextSpecific 0)) (by decide) ?_
  intro fuel hf pre rest d c hd hc h1 h2 h3 h4
  rw [parse, h1]
  simp only [Res.ok_bind, h2, if_true, sliceFrom]
  simp [hw]

theorem steps_extensions (st : ParsingState) (e : Bytes) (b : X509Builder) (hb : e.length < 2 ^ 32) : Steps st (Der.tlv 0xa3#8 e) b b := by
  refine steps_intro hb (.constructed (.contextSpecific 3)) (by decide) ?_
  intro fuel hf pre rest d c hd hc h1 h2 h3 h4
  rw [parse, h1]
  simp only [Res.ok_bind, h2]
  rw [if_neg (by decide)]

theorem steps_bits (st : ParsingState) (x : Byte) (key : Bytes) (b : X509Builder) (hb : key.length < 2 ^ 31) (hx : x ≠ 0x30#8)
    (hn : b.subjectPublicKey = none) :
    Steps st (X509.bitString (x :: key)) b { b with subjectPublicKey := some (x :: key) } := by
  refine steps_intro (by simp; omega) (.primitive .bitString) (by decide) ?_
  intro fuel hf pre rest d c hd hc h1 h2 h3 h4
  rw [parse, h1]
  simp only [Res.ok_bind, h2]
  obtain ⟨p, hp⟩ : ∃ p, p = pre ++ 0x03#8 :: Der.length (0#8 :: x :: key).length := ⟨_, rfl⟩
  rw [← hp] at h3 h4
  have i1 : idx (ε := ParseError) d (c + 1) = .ok x := by
    rw [h3, show p ++ (0#8 :: x :: key ++ rest) = (p ++ [0#8]) ++ x :: (key ++ rest) by simp]
    exact idx_append _ _ _ (by rw [h4]; simp)
  have i0 : idx (ε := ParseError) d c = .ok 0#8 := by
    rw [h3, show p ++ (0#8 :: x :: key ++ rest) = p ++ 0#8 :: (x :: key ++ rest) by simp]
    exact idx_append _ _ _ h4
  rw [i1, i0]
  simp only [Res.ok_bind, hx, if_false, X509Builder.addBits, ne_eq, not_true_eq_false, hn, if_true, sliceFrom]
  simp

/-- A BIT STRING whose contents start with a SEQUENCE is parsed recursively. -/
theorem steps_bitSequence (st : ParsingState) (inner : Bytes) (b b' : X509Builder) (hb : (Der.sequence inner).length < 2 ^ 31)
    (h : Steps .inBitString (Der.sequence inner) b b') : Steps st (X509.bitString (Der.sequence inner)) b b' := by
  obtain ⟨e, he⟩ : ∃ e, e = Der.sequence inner := ⟨_, rfl⟩
  have hhead : ∃ tl, e = 0x30#8 :: tl := ⟨_, by rw [he, Der.sequence, Der.tlv]⟩
  rw [← he] at h hb ⊢
  obtain ⟨tl, htl⟩ := hhead
  refine steps_intro (by simp; omega) (.primitive .bitString) (by decide) ?_
  intro fuel hf pre rest d c hd hc h1 h2 h3 h4
  rw [parse, h1]
  simp only [Res.ok_bind, h2]
  obtain ⟨p, hp⟩ : ∃ p, p = pre ++ 0x03#8 :: Der.length (0#8 :: e).length := ⟨_, rfl⟩
  rw [← hp] at h3 h4
  have i1 : idx (ε := ParseError) d (c + 1) = .ok 0x30#8 := by
    rw [h3, htl, show p ++ (0#8 :: 0x30#8 :: tl ++ rest) = (p ++ [0#8]) ++ 0x30#8 :: (tl ++ rest) by simp]
    exact idx_append _ _ _ (by rw [h4]; simp)
  rw [i1]
  simp only [Res.ok_bind, if_true]
  have hl := StepsL.single (by rw [htl]; simp) h
  have := hl fuel (by simp at hf; omega) (p ++ [0#8]) rest
  have hd' : d = (p ++ [0#8]) ++ (e ++ rest) := by rw [h3]; simp
  rw [← hd', List.length_append, List.length_singleton, ← h4] at this
  rw [show (0#8 :: e).length + (c + 1) - 1 = e.length + (c + 1) by simp; omega, this]
  congr 2
  simp; omega

theorem noteSequence_done (b : X509Builder) (n : Nat) (h : 2 ≤ b.tbsCertificateSize) : b.noteSequence n = b := by
  unfold X509Builder.noteSequence
  rw [if_neg (by omega), if_neg (by omega)]

theorem objectIdentifier_ne (o : Bytes) : X509.objectIdentifier o ≠ [] := tlv_ne _ _

theorem tlv_length_gt (tag : Byte) (b : Bytes) : b.length + 2 ≤ (Der.tlv tag b).length := by
  rw [tlv_length]
  have : 2 ≤ headLen b := by
    unfold headLen Der.length
    split_ifs <;> simp
  omega

/-- A SEQUENCE after the first two. -/
theorem steps_sequence' {st : ParsingState} {body : Bytes} {b b' : X509Builder} (hb : body.length < 2 ^ 32) (h2 : 2 ≤ b.tbsCertificateSize)
    (h : StepsL st body b b') : Steps st (Der.sequence body) b b' :=
  steps_sequence hb (by rw [noteSequence_done b _ h2]; exact h)

/-- The attributes the library can read. -/
def AttrOk (a : X509.Attribute) : Prop := (a.kind = 0x0c#8 ∨ a.kind = 0x13#8 ∨ a.kind = 0x16#8) ∧ utf8Valid a.value = true

/-- The attribute as an entry of the name map. -/
def entry (a : X509.Attribute) : String × Bytes := (parseObjectIdentifier a.oid, a.value)

theorem steps_issuer_attr (a : X509.Attribute) (ha : AttrOk a) (b : X509Builder) (h2 : 2 ≤ b.tbsCertificateSize) (hn : b.validity.notAfter = none)
    (hl : a.encode.length < 2 ^ 32) : Steps .init a.encode b { b with issuer := ⟨entry a :: b.issuer.map, none⟩ } := by
  obtain ⟨o, ho⟩ : ∃ o, o = X509.objectIdentifier a.oid := ⟨_, rfl⟩
  obtain ⟨v, hv⟩ : ∃ v, v = Der.tlv a.kind a.value := ⟨_, rfl⟩
  unfold X509.Attribute.encode at hl ⊢
  have l1 := tlv_length_gt 0x31#8 (Der.sequence (X509.objectIdentifier a.oid ++ Der.tlv a.kind a.value))
  have l2 := tlv_length_gt 0x30#8 (X509.objectIdentifier a.oid ++ Der.tlv a.kind a.value)
  have l3 := tlv_length_gt 0x06#8 a.oid
  have l4 := tlv_length_gt a.kind a.value
  unfold X509.objectIdentifier Der.sequence at *
  rw [List.length_append] at l2
  refine steps_set (by omega) (steps_sequence' (by rw [List.length_append]; omega) h2 ?_)
  refine StepsL.cons (tlv_ne _ _) (steps_oid_set a.oid b (by omega)) (StepsL.single (tlv_ne _ _) ?_)
  refine steps_string _ _ _ _ _ (by omega) ha.1 ?_
  unfold X509Builder.addNameOid X509Builder.addString
  rw [if_pos hn, if_pos ha.2]
  simp only [hn, if_true, Name.addObjectIdentifier, Name.addValue, Res.ok_bind, entry]

theorem steps_subject_attr (a : X509.Attribute) (ha : AttrOk a) (b : X509Builder) (h2 : 2 ≤ b.tbsCertificateSize) (hn : b.validity.notAfter ≠ none)
    (hl : a.encode.length < 2 ^ 32) : Steps .init a.encode b { b with subject := ⟨entry a :: b.subject.map, none⟩ } := by
  unfold X509.Attribute.encode at hl ⊢
  have l1 := tlv_length_gt 0x31#8 (Der.sequence (X509.objectIdentifier a.oid ++ Der.tlv a.kind a.value))
  have l2 := tlv_length_gt 0x30#8 (X509.objectIdentifier a.oid ++ Der.tlv a.kind a.value)
  have l3 := tlv_length_gt 0x06#8 a.oid
  have l4 := tlv_length_gt a.kind a.value
  unfold X509.objectIdentifier Der.sequence at *
  rw [List.length_append] at l2
  refine steps_set (by omega) (steps_sequence' (by rw [List.length_append]; omega) h2 ?_)
  refine StepsL.cons (tlv_ne _ _) (steps_oid_set a.oid b (by omega)) (StepsL.single (tlv_ne _ _) ?_)
  refine steps_string _ _ _ _ _ (by omega) ha.1 ?_
  unfold X509Builder.addNameOid X509Builder.addString
  rw [if_neg hn, if_pos ha.2]
  simp only [hn, if_false, Name.addObjectIdentifier, Name.addValue, Res.ok_bind, entry]

theorem stepsL_issuer (attrs : List X509.Attribute) (ha : ∀ a ∈ attrs, AttrOk a) :
    ∀ (b : X509Builder), 2 ≤ b.tbsCertificateSize → b.validity.notAfter = none → b.issuer.pending = none →
      (attrs.map X509.Attribute.encode).flatten.length < 2 ^ 32 →
      StepsL .init (attrs.map X509.Attribute.encode).flatten b { b with issuer := ⟨(attrs.map entry).reverse ++ b.issuer.map, none⟩ } := by
  induction attrs with
  | nil =>
    intro b h2 hn hp hl
    have : b = { b with issuer := ⟨(([] : List X509.Attribute).map entry).reverse ++ b.issuer.map, none⟩ } := by
      rcases b with ⟨_, _, _, ⟨m, p⟩, _, _, _, _, _, _, _, _⟩
      simp only [] at hp
      subst hp
      rfl
    rw [← this]
    exact StepsL.nil _ _
  | cons a attrs ih =>
    intro b h2 hn hp hl
    simp only [List.map_cons, List.flatten_cons, List.length_append] at hl ⊢
    have s1 := steps_issuer_attr a (ha a (by simp)) b h2 hn (by omega)
    have s2 := ih (fun a h => ha a (by simp [h])) { b with issuer := ⟨entry a :: b.issuer.map, none⟩ } h2 hn rfl (by omega)
    have := StepsL.cons (tlv_ne _ _) s1 s2
    simp only [List.reverse_cons, List.append_assoc, List.singleton_append] at this ⊢
    exact this

theorem stepsL_subject (attrs : List X509.Attribute) (ha : ∀ a ∈ attrs, AttrOk a) :
    ∀ (b : X509Builder), 2 ≤ b.tbsCertificateSize → b.validity.notAfter ≠ none → b.subject.pending = none →
      (attrs.map X509.Attribute.encode).flatten.length < 2 ^ 32 →
      StepsL .init (attrs.map X509.Attribute.encode).flatten b { b with subject := ⟨(attrs.map entry).reverse ++ b.subject.map, none⟩ } := by
  induction attrs with
  | nil =>
    intro b h2 hn hp hl
    have : b = { b with subject := ⟨(([] : List X509.Attribute).map entry).reverse ++ b.subject.map, none⟩ } := by
      rcases b with ⟨_, _, _, _, _, ⟨m, p⟩, _, _, _, _, _, _⟩
      simp only [] at hp
      subst hp
      rfl
    rw [← this]
    exact StepsL.nil _ _
  | cons a attrs ih =>
    intro b h2 hn hp hl
    simp only [List.map_cons, List.flatten_cons, List.length_append] at hl ⊢
    have s1 := steps_subject_attr a (ha a (by simp)) b h2 hn (by omega)
    have s2 := ih (fun a h => ha a (by simp [h])) { b with subject := ⟨entry a :: b.subject.map, none⟩ } h2 hn rfl (by omega)
    have := StepsL.cons (tlv_ne _ _) s1 s2
    simp only [List.reverse_cons, List.append_assoc, List.singleton_append] at this ⊢
    exact this

/-! ### The to-be-signed part -/

theorem utf8_ascii (l : Bytes) (h : ∀ b ∈ l, b.toNat < 128) : utf8Valid l = true := by
  induction l with
  | nil => rfl
  | cons b l ih =>
    rw [utf8Valid.eq_def]
    simp only
    rw [if_pos (h b (by simp))]
    exact ih fun b hb => h b (by simp [hb])

/-- Dates that exist and that UTCTime can express. -/
def DateOk (t : X509.DateTime) : Prop :=
  Time.InCalendar t.year t.month t.day t.hour t.minute t.second ∧ 1950 ≤ t.year ∧ t.year ≤ 2049

/-- The library's form of a date. -/
def utcOf (t : X509.DateTime) : UtcTime := ⟨t.year, t.month, t.day, t.hour, t.minute, t.second⟩

theorem utf8_utc (t : X509.DateTime) (h : DateOk t) : utf8Valid t.utc = true := by
  obtain ⟨⟨⟨hm1, hm2⟩, ⟨hd1, hd2⟩, hh, hmi, hs⟩, hy1, hy⟩ := h
  have hd3 : t.day ≤ 31 := by
    refine le_trans hd2 ?_
    unfold Time.monthDays
    split <;> (try split) <;> omega
  have two : ∀ n, n < 100 → ∀ b ∈ Time.two n, b.toNat < 128 := by
    intro n hn b hb
    simp only [Time.two, List.mem_cons, List.not_mem_nil, or_false] at hb
    rcases hb with rfl | rfl <;> rw [BitVec.toNat_ofNat] <;> omega
  apply utf8_ascii
  intro b hb
  simp only [X509.DateTime.utc, Time.utcTime, List.mem_append, List.mem_singleton] at hb
  rcases hb with (((((hb | hb) | hb) | hb) | hb) | hb) | rfl
  · exact two _ (by omega) b hb
  · exact two _ (by omega) b hb
  · exact two _ (by omega) b hb
  · exact two _ (by omega) b hb
  · exact two _ (by omega) b hb
  · exact two _ (by omega) b hb
  · decide

theorem addTime_eq (t : X509.DateTime) (h : DateOk t) (b : X509Builder) :
    b.addTime t.utc = .ok (if b.validity.notBefore = none then { b with validity := { b.validity with notBefore := some (utcOf t) } }
      else { b with validity := { b.validity with notAfter := some (utcOf t) } }) := by
  unfold X509Builder.addTime
  rw [if_pos (utf8_utc t h), X509.DateTime.utc, C51_parse _ _ _ _ _ _ h.1 h.2.1 h.2.2]
  simp only [Res.mapErr, Res.ok_bind]
  split_ifs <;> rfl

/-- The library's form of a signature algorithm. -/
def algOf : X509.SigAlg → Algorithms
  | .ecdsaWithSha256 => .ecdsaWithSha256
  | .ecdsaWithSha384 => .ecdsaWithSha384

theorem alg_new (a : X509.SigAlg) : Algorithms.new (parseObjectIdentifier a.oid) = .ok (algOf a) := by
  cases a <;> decide +kernel

theorem alg_key : Algorithms.new (parseObjectIdentifier X509.idEcPublicKey) = .ok .ecPublicKey := by decide +kernel
theorem alg_curve : parseObjectIdentifier X509.prime256v1 = "prime256v1" := by decide +kernel

/-- The library's form of a version. -/
def versionOf : Option Nat → Option Version
  | some 0 => some .v1
  | some 1 => some .v2
  | some 2 => some .v3
  | _ => none

/-- The well-formed to-be-signed parts of the specification, up to the size `max`. -/
structure TbsOk (t : X509.Tbs) (max : Nat) : Prop where
  version : ∀ v, t.version = some v → v ≤ 2
  issuer : ∀ a ∈ t.issuer, AttrOk a
  subject : ∀ a ∈ t.subject, AttrOk a
  notBefore : DateOk t.notBefore
  notAfter : DateOk t.notAfter
  key : ∃ k0 k, t.key = k0 :: k ∧ k0 ≠ 0x30#8
  size : t.encode.length < max

/-- The builder after the to-be-signed part. -/
def afterTbs (t : X509.Tbs) : X509Builder where
  version := versionOf t.version
  serialNumber := some t.serial
  signatureAlg := some ⟨algOf t.sigAlg, none⟩
  issuer := ⟨(t.issuer.map entry).reverse, none⟩
  validity := ⟨some (utcOf t.notBefore), some (utcOf t.notAfter)⟩
  subject := ⟨(t.subject.map entry).reverse, none⟩
  spkAlgorithm := some ⟨.ecPublicKey, some (parseObjectIdentifier t.curve)⟩
  subjectPublicKey := some t.key
  tbsCertificateSize := t.body.length + 4
  signatureAlgorithm := none
  signature0 := none
  signature1 := none

theorem stepsL_version (v : Option Nat) (hv : ∀ n, v = some n → n ≤ 2) (body : Bytes) (b b' : X509Builder) (hb : b.version = none)
    (h : StepsL .init body { b with version := versionOf v } b') : StepsL .init (X509.versionField v ++ body) b b' := by
  cases v with
  | none =>
    have : { b with version := versionOf none } = b := by
      rcases b with ⟨v, _, _, _, _, _, _, _, _, _, _, _⟩
      simp only [] at hb
      subst hb
      rfl
    rw [this] at h
    exact h
  | some n =>
    have hn := hv n rfl
    have hw : ∃ w, Version.parse [BitVec.ofNat 8 n] = .ok w ∧ versionOf (some n) = some w := by
      interval_cases n
      · exact ⟨.v1, by decide, rfl⟩
      · exact ⟨.v2, by decide, rfl⟩
      · exact ⟨.v3, by decide, rfl⟩
    obtain ⟨w, h1, h2⟩ := hw
    rw [h2] at h
    exact StepsL.cons (tlv_ne _ _) (steps_version _ n w b (by omega) h1) h

theorem stepsL_extensions (e : Option Bytes) (b : X509Builder) (hl : (X509.extensionsField e).length < 2 ^ 32) :
    StepsL .init (X509.extensionsField e) b b := by
  cases e with
  | none => exact StepsL.nil _ _
  | some e =>
    have := tlv_length_gt 0xa3#8 e
    simp only [X509.extensionsField] at hl ⊢
    exact StepsL.single (tlv_ne _ _) (steps_extensions _ _ _ (by omega))

theorem steps_tbs (t : X509.Tbs) (h : TbsOk t (2 ^ 31)) : Steps .init t.encode { X509Builder.new with tbsCertificateSize := 1 } (afterTbs t) := by
  have hsz := h.size
  have l0 := tlv_length_gt 0x30#8 t.body
  unfold X509.Tbs.encode at hsz ⊢
  unfold Der.sequence at hsz
  refine steps_sequence (by omega) ?_
  obtain ⟨L, hL⟩ : ∃ L, L = t.body.length := ⟨_, rfl⟩
  have hL' : L < 2 ^ 31 := by omega
  have hns : ({ X509Builder.new with tbsCertificateSize := 1 } : X509Builder).noteSequence t.body.length = { X509Builder.new with tbsCertificateSize := L + 4 } := by
    rw [hL]; rfl
  rw [hns]
  unfold afterTbs
  rw [← hL]
  unfold X509.Tbs.body at hL ⊢
  simp only [List.length_append] at hL
  refine stepsL_version _ h.version _ _ _ rfl ?_
  have hint := tlv_length_gt 0x02#8 (beBytes (Der.intLen t.serial) t.serial)
  rw [beBytes_length] at hint
  unfold Der.integer at hL
  refine StepsL.cons (tlv_ne _ _) (steps_integer _ _ _ (by omega)) ?_
  -- signature algorithm
  have lsa := tlv_length_gt 0x30#8 (X509.objectIdentifier t.sigAlg.oid)
  have lsa2 := tlv_length_gt 0x06#8 t.sigAlg.oid
  unfold X509.SigAlg.encode at hL ⊢
  unfold X509.objectIdentifier at hL lsa
  unfold Der.sequence at hL
  refine StepsL.cons (tlv_ne _ _) (steps_sequence' (by unfold X509.objectIdentifier; omega) (by simp [X509Builder.addInteger, X509Builder.new])
    (StepsL.single (tlv_ne _ _) (steps_oid _ _ _ (by omega) (by
      unfold X509Builder.addOid X509Builder.addInteger
      simp only [X509Builder.new, if_true, alg_new, Res.ok_bind]
      rfl)))) ?_
  -- issuer
  have li := tlv_length_gt 0x30#8 (t.issuer.map X509.Attribute.encode).flatten
  unfold X509.name at hL ⊢
  unfold Der.sequence at hL
  refine StepsL.cons (tlv_ne _ _) (steps_sequence' (by omega) (by simp)
    (stepsL_issuer _ h.issuer _ (by simp) (by rfl) (by rfl) (by omega))) ?_
  -- validity
  have lv := tlv_length_gt 0x30#8 (X509.time t.notBefore ++ X509.time t.notAfter)
  have lv1 := tlv_length_gt 0x17#8 t.notBefore.utc
  have lv2 := tlv_length_gt 0x17#8 t.notAfter.utc
  rw [List.length_append] at lv
  unfold X509.time at hL lv ⊢
  refine StepsL.cons (tlv_ne _ _) (steps_sequence' (by rw [List.length_append]; omega) (by simp)
    (StepsL.cons (tlv_ne _ _) (steps_time _ _ _ _ (by omega) (addTime_eq _ h.notBefore _))
      (StepsL.single (tlv_ne _ _) (steps_time _ _ _ _ (by omega) (addTime_eq _ h.notAfter _))))) ?_
  simp only [Validity.new, if_true, reduceCtorEq, if_false]
  -- subject
  have ls := tlv_length_gt 0x30#8 (t.subject.map X509.Attribute.encode).flatten
  refine StepsL.cons (tlv_ne _ _) (steps_sequence' (by omega) (by simp)
    (stepsL_subject _ h.subject _ (by simp) (by simp) (by rfl) (by omega))) ?_
  -- key
  obtain ⟨k0, k, hk, hk0⟩ := h.key
  have lk := tlv_length_gt 0x30#8 (Der.sequence (X509.objectIdentifier X509.idEcPublicKey ++ X509.objectIdentifier t.curve) ++ X509.bitString t.key)
  have lk2 := tlv_length_gt 0x03#8 (0#8 :: t.key)
  rw [List.length_append] at lk
  rw [List.length_cons] at lk2
  unfold X509.spki at hL ⊢
  unfold X509.bitString at hL lk
  unfold Der.sequence at hL
  have lk3 : t.key.length = k.length + 1 := by rw [hk]; rfl
  unfold Der.sequence at lk
  have lk4 := tlv_length_gt 0x30#8 (X509.objectIdentifier X509.idEcPublicKey ++ X509.objectIdentifier t.curve)
  have lk5 : _ < (X509.objectIdentifier t.curve).length := tlv_length_gt 0x06#8 t.curve
  rw [List.length_append] at lk4
  refine StepsL.cons (tlv_ne _ _) (steps_sequence' (by rw [List.length_append]; unfold X509.bitString Der.sequence; omega) (by simp)
    (StepsL.cons (tlv_ne _ _) (steps_sequence' (by rw [List.length_append]; omega) (by simp)
      (StepsL.cons (tlv_ne _ _) (steps_oid _ _ _ (by decide) (by
          unfold X509Builder.addOid
          simp only [alg_key, Res.ok_bind]
          rfl))
        (StepsL.single (tlv_ne _ _) (steps_oid _ _ _ (by omega) (by
          unfold X509Builder.addOid
          simp only [if_true]
          rfl)))))
      (StepsL.single (tlv_ne _ _) (by
        rw [hk]
        exact steps_bits _ _ _ _ (by omega) hk0 rfl)))) ?_
  have := stepsL_extensions t.extensions (afterTbs t) (by omega)
  unfold afterTbs at this
  rw [← hk]
  simp only [Name.new, List.append_nil]
  unfold X509.Tbs.body at this
  simp only [List.length_append] at this
  unfold Der.integer X509.SigAlg.encode X509.name X509.time X509.spki X509.bitString Der.sequence X509.objectIdentifier at this
  unfold X509.objectIdentifier at hL
  rw [← hL] at this
  exact this

/-! ### The whole certificate -/

/-- The builder after the whole certificate. -/
def afterAll (t : X509.Tbs) (r s : Nat) : X509Builder :=
  { afterTbs t with signatureAlgorithm := some (algOf t.sigAlg), signature0 := some r, signature1 := some s }

theorem steps_certificate_extra (t : X509.Tbs) (h : TbsOk t (2 ^ 30)) (r s : Nat) (hr : Der.intLen r < 2 ^ 28) (hs : Der.intLen s < 2 ^ 28)
    (extra : Bytes) (b' : X509Builder) (hel : extra.length < 2 ^ 28) (hex : StepsL .init extra (afterAll t r s) b') :
    Steps .init (Der.sequence (t.encode ++ (t.sigAlg.encode ++ (X509.bitString (Der.ecdsaSig r s) ++ extra)))) X509Builder.new b' := by
  have hbound : ∀ b : Bytes, headLen b ≤ 6 := by
    intro b; unfold headLen Der.length; split_ifs <;> simp [beBytes_length]
  have lir : (Der.integer r).length ≤ 6 + Der.intLen r := by
    unfold Der.integer; rw [tlv_length, beBytes_length]; have := hbound (beBytes (Der.intLen r) r); omega
  have lis : (Der.integer s).length ≤ 6 + Der.intLen s := by
    unfold Der.integer; rw [tlv_length, beBytes_length]; have := hbound (beBytes (Der.intLen s) s); omega
  have lsig : (Der.sequence (Der.integer r ++ Der.integer s)).length ≤ 6 + ((Der.integer r).length + (Der.integer s).length) := by
    unfold Der.sequence; rw [tlv_length, List.length_append]; have := hbound (Der.integer r ++ Der.integer s); omega
  have lbs : (X509.bitString (Der.sequence (Der.integer r ++ Der.integer s))).length ≤ 7 + (Der.sequence (Der.integer r ++ Der.integer s)).length := by
    unfold X509.bitString; rw [tlv_length, List.length_cons]; have := hbound (0#8 :: Der.sequence (Der.integer r ++ Der.integer s)); omega
  have lalg : t.sigAlg.encode.length = 12 := by cases t.sigAlg <;> decide
  have lalg2 : t.sigAlg.oid.length = 8 := by cases t.sigAlg <;> decide
  have lalg3 : (X509.objectIdentifier t.sigAlg.oid).length = 10 := by cases t.sigAlg <;> decide
  have hsz := h.size
  unfold Der.ecdsaSig
  refine steps_sequence (by rw [List.length_append, List.length_append, List.length_append]; omega) ?_
  have hns : X509Builder.new.noteSequence (t.encode ++ (t.sigAlg.encode ++ (X509.bitString (Der.sequence (Der.integer r ++ Der.integer s)) ++
      extra))).length = { X509Builder.new with tbsCertificateSize := 1 } := rfl
  rw [hns]
  refine StepsL.cons (tlv_ne _ _) (steps_tbs t ⟨h.version, h.issuer, h.subject, h.notBefore, h.notAfter, h.key, by omega⟩) ?_
  unfold X509.SigAlg.encode
  refine StepsL.cons (tlv_ne _ _) (steps_sequence' (by omega) (by simp [afterTbs])
    (StepsL.single (tlv_ne _ _) (steps_oid _ _ _ (by omega) (by
      unfold X509Builder.addOid afterTbs
      simp only [alg_new, Res.ok_bind, reduceCtorEq, if_false, if_true]
      rfl)))) (StepsL.cons (tlv_ne _ _) ?_ hex)
  refine steps_bitSequence _ _ _ _ (by omega) ?_
  refine steps_sequence' (by rw [List.length_append]; omega) (by simp) ?_
  exact StepsL.cons (tlv_ne _ _) (steps_integer _ _ _ (by omega)) (StepsL.single (tlv_ne _ _) (steps_integer _ _ _ (by omega)))

theorem steps_certificate (t : X509.Tbs) (h : TbsOk t (2 ^ 30)) (r s : Nat) (hr : Der.intLen r < 2 ^ 28) (hs : Der.intLen s < 2 ^ 28) :
    Steps .init (X509.certificate t r s) X509Builder.new (afterAll t r s) := by
  have := steps_certificate_extra t h r s hr hs [] _ (by norm_num) (StepsL.nil _ _)
  rw [List.append_nil] at this
  exact this

/-- A date and attributes after the signature. -/
theorem fromRaw_forged (t : X509.Tbs) (h : TbsOk t (2 ^ 30)) (r s : Nat) (hr : Der.intLen r < 2 ^ 28) (hs : Der.intLen s < 2 ^ 28)
    (date : X509.DateTime) (hd : DateOk date) (attrs : List X509.Attribute) (ha : ∀ a ∈ attrs, AttrOk a)
    (hl : (X509.time date ++ (attrs.map X509.Attribute.encode).flatten).length < 2 ^ 28) :
    Model.X509.fromRaw (Der.sequence (t.encode ++ (t.sigAlg.encode ++ (X509.bitString (Der.ecdsaSig r s) ++
        (X509.time date ++ (attrs.map X509.Attribute.encode).flatten))))) = .ok {
      version := versionOf t.version
      serialNumber := t.serial
      signatureAlg := ⟨algOf t.sigAlg, none⟩
      issuer := ⟨(t.issuer.map entry).reverse, none⟩
      validity := ⟨some (utcOf t.notBefore), some (utcOf date)⟩
      subject := ⟨((t.subject ++ attrs).map entry).reverse, none⟩
      spkAlgorithm := ⟨.ecPublicKey, some (parseObjectIdentifier t.curve)⟩
      subjectPublicKey := t.key
      tbsCertificateSize := t.body.length + 4
      signatureAlgorithm := algOf t.sigAlg
      signature := some ⟨s, r⟩ } := by
  have hl2 := hl
  rw [List.length_append] at hl2
  have l1 := tlv_length_gt 0x17#8 date.utc
  unfold X509.time at hl2
  have hex : StepsL .init (X509.time date ++ (attrs.map X509.Attribute.encode).flatten) (afterAll t r s)
      { afterAll t r s with
        validity := ⟨some (utcOf t.notBefore), some (utcOf date)⟩
        subject := ⟨(attrs.map entry).reverse ++ (t.subject.map entry).reverse, none⟩ } := by
    refine StepsL.cons (tlv_ne _ _) (steps_time _ _ _ _ (by omega) (addTime_eq _ hd _)) ?_
    have hne : (afterAll t r s).validity.notBefore ≠ none := by simp [afterAll, afterTbs]
    rw [if_neg hne]
    exact stepsL_subject attrs ha _ (by simp [afterAll, afterTbs]) (by simp) rfl (by omega)
  have hst := steps_certificate_extra t h r s hr hs _ _ hl hex
  obtain ⟨d, hdd⟩ : ∃ d, d = Der.sequence (t.encode ++ (t.sigAlg.encode ++ (X509.bitString (Der.ecdsaSig r s) ++
        (X509.time date ++ (attrs.map X509.Attribute.encode).flatten)))) := ⟨_, rfl⟩
  rw [← hdd] at hst ⊢
  have := hst (d.length + 1) (by omega) [] []
  rw [List.nil_append, List.append_nil, List.length_nil] at this
  unfold Model.X509.fromRaw
  rw [this]
  simp only [Res.ok_bind, X509Builder.build, afterAll, afterTbs, Res.unwrap, List.map_append, List.reverse_append]

theorem fromRaw_certificate (t : X509.Tbs) (h : TbsOk t (2 ^ 30)) (r s : Nat) (hr : Der.intLen r < 2 ^ 28) (hs : Der.intLen s < 2 ^ 28)
    (rest : Bytes) :
    Model.X509.fromRaw (X509.certificate t r s ++ rest) = .ok {
      version := versionOf t.version
      serialNumber := t.serial
      signatureAlg := ⟨algOf t.sigAlg, none⟩
      issuer := ⟨(t.issuer.map entry).reverse, none⟩
      validity := ⟨some (utcOf t.notBefore), some (utcOf t.notAfter)⟩
      subject := ⟨(t.subject.map entry).reverse, none⟩
      spkAlgorithm := ⟨.ecPublicKey, some (parseObjectIdentifier t.curve)⟩
      subjectPublicKey := t.key
      tbsCertificateSize := t.body.length + 4
      signatureAlgorithm := algOf t.sigAlg
      signature := some ⟨s, r⟩ } := by
  have := steps_certificate t h r s hr hs ((X509.certificate t r s ++ rest).length + 1) (by rw [List.length_append]; omega) [] rest
  rw [List.nil_append, List.length_nil] at this
  unfold Model.X509.fromRaw
  rw [this]
  rfl

/-! ### Names -/

theorem beNat_lower (l : Bytes) (h : l.head? ≠ some 0#8) (hl : l ≠ []) : 256 ^ (l.length - 1) ≤ beNat l := by
  cases l with
  | nil => exact absurd rfl hl
  | cons b l =>
    rw [beNat_cons]
    have : b.toNat ≠ 0 := by
      intro h0
      apply h
      rw [List.head?_cons]
      congr 1
      apply BitVec.eq_of_toNat_eq
      rw [h0]; rfl
    simp only [List.length_cons, Nat.add_sub_cancel]
    calc 256 ^ l.length = 1 * 256 ^ l.length := (one_mul _).symm
      _ ≤ b.toNat * 256 ^ l.length := Nat.mul_le_mul_right _ (by omega)
      _ ≤ _ := Nat.le_add_right _ _

theorem beNat_inj (x y : Bytes) (hx : x.head? ≠ some 0#8) (hy : y.head? ≠ some 0#8) (hx0 : x ≠ []) (hy0 : y ≠ []) (h : beNat x = beNat y) : x = y := by
  have l1 := beNat_lower x hx hx0
  have l2 := beNat_lower y hy hy0
  have u1 := beNat_lt x
  have u2 := beNat_lt y
  have p1 := List.length_pos_iff.2 hx0
  have p2 := List.length_pos_iff.2 hy0
  have hlen : x.length = y.length := by
    rcases Nat.lt_trichotomy x.length y.length with hlt | he | hlt
    · have : (256 : Nat) ^ x.length ≤ 256 ^ (y.length - 1) := Nat.pow_le_pow_right (by norm_num) (by omega)
      omega
    · exact he
    · have : (256 : Nat) ^ y.length ≤ 256 ^ (x.length - 1) := Nat.pow_le_pow_right (by norm_num) (by omega)
      omega
  rw [← beBytes_beNat x, ← beBytes_beNat y, h, hlen]

theorem toU128BeFill_take (l : Bytes) : (toU128BeFill l).toNat = beNat (l.take 16) := by
  by_cases h : l.length ≤ 16
  · rw [toU128BeFill_eq l h, List.take_of_length_le h]
  · have : toU128BeFill l = toU128BeFill (l.take 16) := by
      unfold toU128BeFill
      rw [if_neg (by omega), if_neg (by rw [List.length_take]; omega), List.take_take]
      simp
    rw [this, toU128BeFill_eq _ (by rw [List.length_take]; omega)]

/-- An identifier not starting with a zero octet has the value of a short one only if it is that one. -/
theorem oid_value_iff (id o : Bytes) (hid : id.head? ≠ some 0#8) (ho : o.head? ≠ some 0#8) (ho0 : o ≠ []) (hol : o.length < 16)
    (h : (toU128BeFill id).toNat = beNat o) : id = o := by
  rw [toU128BeFill_take] at h
  have l2 := beNat_lower o ho ho0
  have hid0 : id ≠ [] := by
    rintro rfl
    have hz : beNat (([] : Bytes).take 16) = 0 := rfl
    rw [hz] at h
    have : 0 < 256 ^ (o.length - 1) := by positivity
    omega
  have hh : (id.take 16).head? = id.head? := by cases id with
    | nil => rfl
    | cons a l => rfl
  have ht : id.take 16 = o := beNat_inj _ _ (by rw [hh]; exact hid) ho (by cases id with
    | nil => exact absurd rfl hid0
    | cons a l => simp) ho0 h
  have hlen := congrArg List.length ht
  rw [List.length_take] at hlen
  rw [← ht, List.take_of_length_le (by omega)]

theorem attribute_iff (o : Bytes) (nm : String) (h : (o, nm) ∈ X509.attributeNames) (id : Bytes) (hid : id.head? ≠ some 0#8) :
    parseObjectIdentifier id = nm ↔ id = o := by
  constructor
  · intro hp
    simp only [X509.attributeNames, List.mem_cons, Prod.mk.injEq, List.not_mem_nil, or_false] at h
    unfold parseObjectIdentifier at hp
    rcases h with ⟨rfl, rfl⟩ | ⟨rfl, rfl⟩ | ⟨rfl, rfl⟩ | ⟨rfl, rfl⟩ | ⟨rfl, rfl⟩ | ⟨rfl, rfl⟩ | ⟨rfl, rfl⟩ <;>
    · split at hp <;> first
        | (exfalso; revert hp; decide)
        | (rename_i hv; exact oid_value_iff _ _ hid (by decide) (by decide) (by decide) (hv.trans (by decide +kernel)))
  · rintro rfl
    simp only [X509.attributeNames, List.mem_cons, Prod.mk.injEq, List.not_mem_nil, or_false] at h
    rcases h with ⟨rfl, rfl⟩ | ⟨rfl, rfl⟩ | ⟨rfl, rfl⟩ | ⟨rfl, rfl⟩ | ⟨rfl, rfl⟩ | ⟨rfl, rfl⟩ | ⟨rfl, rfl⟩ <;> decide +kernel

theorem lookup_entries (attrs : List X509.Attribute) (o : Bytes) (nm : String) (h : (o, nm) ∈ X509.attributeNames)
    (hz : ∀ a ∈ attrs, a.oid.head? ≠ some 0#8) :
    (attrs.map entry).lookup nm = (attrs.find? fun a => a.oid == o).map (·.value) := by
  induction attrs with
  | nil => rfl
  | cons a attrs ih =>
    rw [List.map_cons, entry, List.lookup_cons, List.find?_cons, ih fun a ha => hz a (by simp [ha])]
    have := attribute_iff o nm h a.oid (hz a (by simp))
    by_cases he : a.oid = o
    · rw [beq_iff_eq.2 he, beq_iff_eq.2 (this.2 he).symm]; rfl
    · rw [beq_eq_false_iff_ne.2 he, beq_eq_false_iff_ne.2 (fun h => he (this.1 h.symm))]

theorem get_name (attrs : List X509.Attribute) (o : Bytes) (nm : String) (h : (o, nm) ∈ X509.attributeNames)
    (hz : ∀ a ∈ attrs, a.oid.head? ≠ some 0#8) :
    Name.get ⟨(attrs.map entry).reverse, none⟩ nm = Res.okOr .nameGet (X509.attributeValue attrs o) := by
  unfold Name.get X509.attributeValue
  rw [← List.map_reverse, lookup_entries _ o nm h (fun a ha => hz a (List.mem_reverse.1 ha))]
  cases (attrs.reverse.find? fun a => a.oid == o) <;> rfl

/-! ### Anything after the to-be-signed part -/

/-- Fields of the builder that, once set, are never changed. -/
structure Keeps (b b' : X509Builder) : Prop where
  serial : ∀ v, b.serialNumber = some v → b'.serialNumber = some v
  sigAlg : ∀ v, b.signatureAlg = some v → b'.signatureAlg = some v
  spk : ∀ a p, b.spkAlgorithm = some ⟨a, some p⟩ → b'.spkAlgorithm = some ⟨a, some p⟩
  key : ∀ v, b.subjectPublicKey = some v → b'.subjectPublicKey = some v
  notBefore : ∀ v, b.validity.notBefore = some v → b'.validity.notBefore = some v
  tbs : 2 ≤ b.tbsCertificateSize → b'.tbsCertificateSize = b.tbsCertificateSize
  notAfter : b.validity.notAfter ≠ none → b'.validity.notAfter ≠ none ∧ b'.issuer = b.issuer

theorem Keeps.refl (b : X509Builder) : Keeps b b := ⟨fun _ h => h, fun _ h => h, fun _ _ h => h, fun _ h => h, fun _ h => h, fun _ => rfl, fun h => ⟨h, rfl⟩⟩

theorem Keeps.trans {a b c : X509Builder} (h1 : Keeps a b) (h2 : Keeps b c) : Keeps a c :=
  ⟨fun v h => h2.serial v (h1.serial v h), fun v h => h2.sigAlg v (h1.sigAlg v h), fun x p h => h2.spk x p (h1.spk x p h),
    fun v h => h2.key v (h1.key v h), fun v h => h2.notBefore v (h1.notBefore v h),
    fun h => by rw [h2.tbs (by rw [h1.tbs h]; exact h), h1.tbs h],
    fun h => ⟨(h2.notAfter (h1.notAfter h).1).1, by rw [(h2.notAfter (h1.notAfter h).1).2, (h1.notAfter h).2]⟩⟩

theorem keeps_noteSequence (b : X509Builder) (n : Nat) : Keeps b (b.noteSequence n) := by
  unfold X509Builder.noteSequence
  split_ifs with h1 h2
  · exact ⟨fun _ h => h, fun _ h => h, fun _ _ h => h, fun _ h => h, fun _ h => h, fun h => absurd h (by omega), fun h => ⟨h, rfl⟩⟩
  · exact ⟨fun _ h => h, fun _ h => h, fun _ _ h => h, fun _ h => h, fun _ h => h, fun h => absurd h (by omega), fun h => ⟨h, rfl⟩⟩
  · exact Keeps.refl _

theorem keeps_addInteger (b : X509Builder) (n : Nat) : Keeps b (b.addInteger n) := by
  unfold X509Builder.addInteger
  split_ifs with h1 h2
  · exact ⟨fun v h => (by rw [h1] at h; cases h), fun _ h => h, fun _ _ h => h, fun _ h => h, fun _ h => h, fun _ => rfl, fun h => ⟨h, rfl⟩⟩
  · exact ⟨fun _ h => h, fun _ h => h, fun _ _ h => h, fun _ h => h, fun _ h => h, fun _ => rfl, fun h => ⟨h, rfl⟩⟩
  · exact ⟨fun _ h => h, fun _ h => h, fun _ _ h => h, fun _ h => h, fun _ h => h, fun _ => rfl, fun h => ⟨h, rfl⟩⟩

theorem keeps_addNameOid (b : X509Builder) (o : Bytes) : Keeps b (b.addNameOid o) := by
  unfold X509Builder.addNameOid
  split_ifs with h1
  · exact ⟨fun _ h => h, fun _ h => h, fun _ _ h => h, fun _ h => h, fun _ h => h, fun _ => rfl, fun h => absurd h1 h⟩
  · exact ⟨fun _ h => h, fun _ h => h, fun _ _ h => h, fun _ h => h, fun _ h => h, fun _ => rfl, fun h => ⟨h, rfl⟩⟩

theorem keeps_addOid (b b' : X509Builder) (o : Bytes) (h : b.addOid o = .ok b') : Keeps b b' := by
  unfold X509Builder.addOid at h
  simp only [] at h
  split at h
  · rename_i h1
    obtain ⟨a, _, h⟩ := Res.bind_eq_ok.1 h
    cases h
    exact ⟨fun _ h => h, fun v h => (by rw [h1] at h; cases h), fun _ _ h => h, fun _ h => h, fun _ h => h, fun _ => rfl, fun h => ⟨h, rfl⟩⟩
  · rename_i h1 h2
    obtain ⟨a, _, h⟩ := Res.bind_eq_ok.1 h
    cases h
    exact ⟨fun _ h => h, fun _ h => h, fun _ _ h => (by rw [h2] at h; cases h), fun _ h => h, fun _ h => h, fun _ => rfl, fun h => ⟨h, rfl⟩⟩
  · rename_i v alg h1 h2
    split_ifs at h with h3 h4
    · cases h
      exact ⟨fun _ h => h, fun _ h => h, fun _ _ h => (by rw [h2] at h; cases h; cases h3), fun _ h => h, fun _ h => h, fun _ => rfl, fun h => ⟨h, rfl⟩⟩
    · obtain ⟨a, _, h⟩ := Res.bind_eq_ok.1 h
      cases h
      exact ⟨fun _ h => h, fun _ h => h, fun _ _ h => h, fun _ h => h, fun _ h => h, fun _ => rfl, fun h => ⟨h, rfl⟩⟩
    · cases h
      exact Keeps.refl _

theorem keeps_addString (b b' : X509Builder) (o : Bytes) (h : b.addString o = .ok b') : Keeps b b' := by
  unfold X509Builder.addString at h
  split_ifs at h with h1 h2
  · obtain ⟨a, _, h⟩ := Res.bind_eq_ok.1 h
    cases h
    exact ⟨fun _ h => h, fun _ h => h, fun _ _ h => h, fun _ h => h, fun _ h => h, fun _ => rfl, fun h => absurd h2 h⟩
  · obtain ⟨a, _, h⟩ := Res.bind_eq_ok.1 h
    cases h
    exact ⟨fun _ h => h, fun _ h => h, fun _ _ h => h, fun _ h => h, fun _ h => h, fun _ => rfl, fun h => ⟨h, rfl⟩⟩

theorem keeps_addTime (b b' : X509Builder) (o : Bytes) (h : b.addTime o = .ok b') : Keeps b b' := by
  unfold X509Builder.addTime at h
  split_ifs at h with h1 h2
  · obtain ⟨a, _, h⟩ := Res.bind_eq_ok.1 h
    cases h
    exact ⟨fun _ h => h, fun _ h => h, fun _ _ h => h, fun _ h => h, fun v h => (by rw [h2] at h; cases h), fun _ => rfl, fun h => ⟨h, rfl⟩⟩
  · obtain ⟨a, _, h⟩ := Res.bind_eq_ok.1 h
    cases h
    exact ⟨fun _ h => h, fun _ h => h, fun _ _ h => h, fun _ h => h, fun _ h => h, fun _ => rfl, fun h => ⟨by simp, rfl⟩⟩

theorem keeps_addBits (b b' : X509Builder) (u : Byte) (o : Bytes) (h : b.addBits u o = .ok b') : Keeps b b' := by
  unfold X509Builder.addBits at h
  split_ifs at h with h1 h2
  · obtain ⟨a, _, h⟩ := Res.bind_eq_ok.1 h
    cases h
    exact ⟨fun _ h => h, fun _ h => h, fun _ _ h => h, fun v h => (by rw [h2] at h; cases h), fun _ h => h, fun _ => rfl, fun h => ⟨h, rfl⟩⟩
  · cases h
    exact Keeps.refl _

theorem keeps_parse (fuel : Nat) :
    (∀ b st d c b' c', parse fuel b st d c = .ok (b', c') → Keeps b b') ∧
    (∀ b st d c e b' c', parseWhile fuel b st d c e = .ok (b', c') → Keeps b b') := by
  induction fuel with
  | zero => exact ⟨fun b st d c b' c' h => by simp [parse] at h, fun b st d c e b' c' h => by simp [parseWhile] at h⟩
  | succ fuel ih =>
    refine ⟨?_, ?_⟩
    · intro b st d c b' c' h
      rw [parse] at h
      obtain ⟨⟨size, der, c1⟩, _, h⟩ := Res.bind_eq_ok.1 h
      obtain ⟨body, _, h⟩ := Res.bind_eq_ok.1 h
      split at h
      · exact (keeps_noteSequence _ _).trans (ih.2 _ _ _ _ _ _ _ h)
      · split_ifs at h
        · obtain ⟨v, _, h⟩ := Res.bind_eq_ok.1 h
          obtain ⟨w, _, h⟩ := Res.bind_eq_ok.1 h
          cases h
          exact ⟨fun _ h => h, fun _ h => h, fun _ _ h => h, fun _ h => h, fun _ h => h, fun _ => rfl, fun h => ⟨h, rfl⟩⟩
        · cases h
          exact Keeps.refl _
      · exact ih.1 _ _ _ _ _ _ h
      · cases h
      · cases h
        exact keeps_addInteger _ _
      · split at h
        · cases h
          exact keeps_addNameOid _ _
        · obtain ⟨v, hv, h⟩ := Res.bind_eq_ok.1 h
          cases h
          exact keeps_addOid _ _ _ hv
        · cases h
      · obtain ⟨v, hv, h⟩ := Res.bind_eq_ok.1 h
        cases h
        exact keeps_addString _ _ _ hv
      · obtain ⟨v, hv, h⟩ := Res.bind_eq_ok.1 h
        cases h
        exact keeps_addString _ _ _ hv
      · cases h
      · obtain ⟨v, hv, h⟩ := Res.bind_eq_ok.1 h
        cases h
        exact keeps_addTime _ _ _ hv
      · obtain ⟨nx, _, h⟩ := Res.bind_eq_ok.1 h
        split_ifs at h
        · exact ih.2 _ _ _ _ _ _ _ h
        · obtain ⟨u, _, h⟩ := Res.bind_eq_ok.1 h
          obtain ⟨v, hv, h⟩ := Res.bind_eq_ok.1 h
          cases h
          exact keeps_addBits _ _ _ _ hv
      · cases h
      · cases h
    · intro b st d c e b' c' h
      rw [parseWhile] at h
      split_ifs at h
      · obtain ⟨⟨b1, c1⟩, h1, h⟩ := Res.bind_eq_ok.1 h
        exact (ih.1 _ _ _ _ _ _ h1).trans (ih.2 _ _ _ _ _ _ _ h)
      · cases h
        exact Keeps.refl _

/-- The parser on anything that starts with a four-octet outer header followed by a well-formed to-be-signed part. -/
theorem fromRaw_signed (t : X509.Tbs) (h : TbsOk t (2 ^ 31)) (l1 l2 : Byte) (tail : Bytes) (x : Model.X509)
    (hx : Model.X509.fromRaw (0x30#8 :: 0x82#8 :: l1 :: l2 :: (t.encode ++ tail)) = .ok x) :
    x.serialNumber = t.serial ∧ x.validity.notBefore = some (utcOf t.notBefore) ∧ x.subjectPublicKey = t.key ∧
      x.spkAlgorithm = ⟨.ecPublicKey, some (parseObjectIdentifier t.curve)⟩ ∧ x.signatureAlg = ⟨algOf t.sigAlg, none⟩ ∧
      x.tbsCertificateSize = t.body.length + 4 ∧ x.issuer = ⟨(t.issuer.map entry).reverse, none⟩ := by
  obtain ⟨d, hd⟩ : ∃ d, d = 0x30#8 :: 0x82#8 :: l1 :: l2 :: (t.encode ++ tail) := ⟨_, rfl⟩
  rw [← hd] at hx
  unfold Model.X509.fromRaw at hx
  obtain ⟨⟨b, c⟩, hp, hb⟩ := Res.bind_eq_ok.1 hx
  have hdl : d.length = t.encode.length + tail.length + 4 := by rw [hd]; simp
  obtain ⟨f, hf⟩ : ∃ f, d.length = f + 1 := ⟨d.length - 1, by omega⟩
  rw [hf, parse] at hp
  obtain ⟨size, hsz⟩ : ∃ size, size = beNat [l1, l2] := ⟨_, rfl⟩
  have hdp : derParse 0 d = if size > d.length then .err .derParseLen else .ok (size, .constructed .sequence, 4) := by
    unfold derParse
    have i0 : idx (ε := ParseError) d 0 = .ok 0x30#8 := by rw [hd]; rfl
    have hl : getLen (ε := ParseError) d 1 = .ok (size, 4) := by
      have hlt : size < 256 ^ 2 := by rw [hsz]; exact beNat_lt [l1, l2]
      have := getLen_long (ε := ParseError) [0x30#8] (t.encode ++ tail) 2 size (by norm_num) hlt
      rw [hsz, show (2 : Nat) = [l1, l2].length from rfl, beBytes_beNat] at this
      rw [hd, hsz]
      exact this
    rw [i0]
    have ht : DerType.fromU8 0x30#8 = some (.constructed .sequence) := by decide
    simp only [Res.ok_bind, ht, hl, Res.okOr, Nat.zero_add]
  rw [hdp] at hp
  split_ifs at hp with hbig
  · cases hp
  simp only [Res.ok_bind] at hp
  obtain ⟨body, _, hp⟩ := Res.bind_eq_ok.1 hp
  have hn : X509Builder.new.noteSequence size = { X509Builder.new with tbsCertificateSize := 1 } := rfl
  rw [parseWhile, hn] at hp
  split_ifs at hp with hc
  · have hs := steps_tbs t h f (by omega) [0x30#8, 0x82#8, l1, l2] tail
    have hd' : [0x30#8, 0x82#8, l1, l2] ++ (t.encode ++ tail) = d := by rw [hd]; rfl
    rw [hd'] at hs
    have hs : parse f { X509Builder.new with tbsCertificateSize := 1 } .init d 4 = .ok (afterTbs t, 4 + t.encode.length) := hs
    rw [hs] at hp
    simp only [Res.ok_bind] at hp
    have hk := (keeps_parse f).2 _ _ _ _ _ _ _ hp
    have k1 := hk.serial _ rfl
    have k2 := hk.sigAlg _ rfl
    have k3 := hk.spk _ _ rfl
    have k4 := hk.key _ rfl
    have k5 := hk.notBefore _ rfl
    have k6 := hk.tbs (by simp [afterTbs])
    have k7 := (hk.notAfter (by simp [afterTbs])).2
    unfold X509Builder.build at hb
    simp only [k1, k2, k3, k4, Res.unwrap, Res.ok_bind] at hb
    obtain ⟨sa, _, hb⟩ := Res.bind_eq_ok.1 hb
    cases hb
    exact ⟨rfl, k5, rfl, rfl, rfl, k6, k7⟩
  · cases hp
    simp [X509Builder.build, X509Builder.new] at hb

/-! ### Termination -/

theorem idx_lt' {ε : Type} {d : Bytes} {i : Nat} {x : Byte} (h : idx (ε := ε) d i = .ok x) : i < d.length := by
  by_contra hc
  unfold idx at h
  rw [List.getElem?_eq_none (by omega)] at h
  cases h

theorem derParse_advances {c c' size : Nat} {d : Bytes} {form : EncodedForm} (h : derParse c d = .ok (size, form, c')) :
    c + 2 ≤ c' ∧ c + 2 ≤ d.length := by
  unfold derParse at h
  obtain ⟨tag, _, h⟩ := Res.bind_eq_ok.1 h
  obtain ⟨t, _, h⟩ := Res.bind_eq_ok.1 h
  obtain ⟨⟨sz, c1⟩, hg, h⟩ := Res.bind_eq_ok.1 h
  simp only [] at h
  split_ifs at h
  cases h
  unfold getLen at hg
  obtain ⟨b, hb, hg⟩ := Res.bind_eq_ok.1 hg
  have := idx_lt' hb
  split_ifs at hg
  · obtain ⟨l, _, hg⟩ := Res.bind_eq_ok.1 hg
    cases hg
    omega
  · cases hg
    omega

theorem parse_advances (fuel : Nat) :
    (∀ b st d c b' c', parse fuel b st d c = .ok (b', c') → c + 2 ≤ c' ∧ c + 2 ≤ d.length) ∧
    (∀ b st d c e b' c', parseWhile fuel b st d c e = .ok (b', c') → c ≤ c') := by
  induction fuel with
  | zero => exact ⟨fun b st d c b' c' h => by simp [parse] at h, fun b st d c e b' c' h => by simp [parseWhile] at h⟩
  | succ fuel ih =>
    refine ⟨?_, ?_⟩
    · intro b st d c b' c' h
      rw [parse] at h
      obtain ⟨⟨size, der, c1⟩, hd, h⟩ := Res.bind_eq_ok.1 h
      obtain ⟨a1, a2⟩ := derParse_advances hd
      refine ⟨?_, a2⟩
      obtain ⟨body, _, h⟩ := Res.bind_eq_ok.1 h
      split at h
      · exact le_trans a1 (ih.2 _ _ _ _ _ _ _ h)
      · split_ifs at h
        · obtain ⟨v, _, h⟩ := Res.bind_eq_ok.1 h
          obtain ⟨w, _, h⟩ := Res.bind_eq_ok.1 h
          cases h
          omega
        · cases h
          omega
      · have := (ih.1 _ _ _ _ _ _ h).1
        omega
      · cases h
      · cases h
        omega
      · split at h
        · cases h
          omega
        · obtain ⟨v, hv, h⟩ := Res.bind_eq_ok.1 h
          cases h
          omega
        · cases h
      · obtain ⟨v, hv, h⟩ := Res.bind_eq_ok.1 h
        cases h
        omega
      · obtain ⟨v, hv, h⟩ := Res.bind_eq_ok.1 h
        cases h
        omega
      · cases h
      · obtain ⟨v, hv, h⟩ := Res.bind_eq_ok.1 h
        cases h
        omega
      · obtain ⟨nx, _, h⟩ := Res.bind_eq_ok.1 h
        split_ifs at h
        · have := ih.2 _ _ _ _ _ _ _ h
          omega
        · obtain ⟨u, _, h⟩ := Res.bind_eq_ok.1 h
          obtain ⟨v, hv, h⟩ := Res.bind_eq_ok.1 h
          cases h
          omega
      · cases h
      · cases h
    · intro b st d c e b' c' h
      rw [parseWhile] at h
      split_ifs at h
      · obtain ⟨⟨b1, c1⟩, h1, h⟩ := Res.bind_eq_ok.1 h
        have := (ih.1 _ _ _ _ _ _ h1).1
        have := ih.2 _ _ _ _ _ _ _ h
        omega
      · cases h
        omega

/-- With enough fuel for the bytes that are left, more fuel changes nothing. -/
theorem fuel_enough (d : Bytes) (n : Nat) :
    (∀ b st c f1 f2, d.length - c + 1 ≤ n → d.length - c + 1 ≤ f1 → d.length - c + 1 ≤ f2 → parse f1 b st d c = parse f2 b st d c) ∧
    (∀ b st c e f1 f2, d.length - c + 2 ≤ n → d.length - c + 2 ≤ f1 → d.length - c + 2 ≤ f2 →
      parseWhile f1 b st d c e = parseWhile f2 b st d c e) := by
  induction n with
  | zero => exact ⟨fun b st c f1 f2 h => by omega, fun b st c e f1 f2 h => by omega⟩
  | succ n ih =>
    refine ⟨?_, ?_⟩
    · intro b st c f1 f2 hn h1 h2
      obtain ⟨g1, rfl⟩ : ∃ g, f1 = g + 1 := ⟨f1 - 1, by omega⟩
      obtain ⟨g2, rfl⟩ : ∃ g, f2 = g + 1 := ⟨f2 - 1, by omega⟩
      rw [parse, parse]
      cases hd : derParse c d with
      | err e => rfl
      | panic => rfl
      | ok v =>
        obtain ⟨size, form, c'⟩ := v
        obtain ⟨a1, a2⟩ := derParse_advances hd
        simp only [Res.ok_bind]
        rw [ih.1 b .inSet c' g1 g2 (by omega) (by omega) (by omega),
          ih.2 (b.noteSequence size) st c' (size + c') g1 g2 (by omega) (by omega) (by omega),
          ih.2 b .inBitString (c' + 1) (size + (c' + 1) - 1) g1 g2 (by omega) (by omega) (by omega)]
    · intro b st c e f1 f2 hn h1 h2
      obtain ⟨g1, rfl⟩ : ∃ g, f1 = g + 1 := ⟨f1 - 1, by omega⟩
      obtain ⟨g2, rfl⟩ : ∃ g, f2 = g + 1 := ⟨f2 - 1, by omega⟩
      rw [parseWhile, parseWhile]
      split_ifs
      · rw [ih.1 b st c g1 g2 (by omega) (by omega) (by omega)]
        cases hp : parse g2 b st d c with
        | err e => rfl
        | panic => rfl
        | ok v =>
          obtain ⟨b1, c1⟩ := v
          have ha := (parse_advances g2).1 _ _ _ _ _ _ hp
          simp only [Res.ok_bind]
          exact ih.2 b1 st c1 e g1 g2 (by omega) (by omega) (by omega)
      · rfl

end ATLS.X509Proof
