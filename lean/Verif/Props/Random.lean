import Verif.Props.Config
import Verif.Spec.P256
import Verif.Props.ClientDefs
import Verif.Props.ServerDefs
import Verif.Props.PairExample
import Mathlib.Data.Int.CardIntervalMod
import Mathlib.SetTheory.Cardinal.Finite
/-
C108: secret numbers are drawn evenly.
-/
namespace ATLS
open ATLS.Model ATLS.Spec

/-- The number of results of reading 100 bytes from `/dev/urandom` for which the number drawn as a private key or a signature nonce (`between(1, 32)`) has
the property. -/
noncomputable def waysOf (P : Int → Prop) : Nat :=
  Nat.card {b : Bytes // b.length = 100 ∧ ∃ v rng, ((Rng.urandom [b]).between 1 32 : Res TlsError (Int × Rng)) = .ok (v, rng) ∧ P v}

namespace RandomProof

/-- How many bytes are used. -/
def used (p : Bytes) : Nat := match (toU64Le p : Res TlsError (BitVec 64)) with | .ok u => u.toNat % 50 + 42 | _ => 42

theorem used_le (p : Bytes) : 42 ≤ used p ∧ used p ≤ 91 := by
  unfold used
  split <;> omega

def modulus : Nat := 2 ^ 256 - 2 ^ 8

theorem between_eq (p rest : Bytes) (hp : p.length = 8) (hr : rest.length = 92) :
    ((Rng.urandom [p ++ rest]).between 1 32 : Res TlsError (Int × Rng)) = .ok (((beNat (rest.take (used p)) % modulus + 256 : Nat) : Int), .urandom []) := by
  have hb : (p ++ rest).length = 100 := by simp [hp, hr]
  have h8 : (slice (p ++ rest) 0 8 : Res TlsError Bytes) = .ok p := by
    unfold slice; rw [if_pos ⟨by omega, by omega⟩]; simp [← hp]
  obtain ⟨u, hu⟩ : ∃ u, (toU64Le p : Res TlsError (BitVec 64)) = .ok u := by
    unfold toU64Le slice
    rw [if_pos ⟨by omega, by omega⟩]
    exact ⟨_, rfl⟩
  have hus : used p = u.toNat % 50 + 42 := by unfold used; rw [hu]
  unfold Rng.between URandomRng.next readFromUrandom
  simp only [if_pos hb, Res.ok_bind, h8, hu]
  have hd : (slice (p ++ rest) 8 (u.toNat % 50 + 50) : Res TlsError Bytes) = .ok (rest.take (used p)) := by
    unfold slice; rw [if_pos ⟨by omega, by omega⟩, hus, ← hp, List.drop_left, hp]
    congr 2
  rw [hd]
  simp only [Res.ok_bind]
  rw [if_neg (by norm_num)]
  congr 2
  rw [toIbigBe_eq, Int.tmod_eq_emod_of_nonneg (by omega)]
  unfold modulus
  push_cast
  norm_num

/-- Byte strings and numbers. -/
def numbers (k : Nat) (Q : Nat → Prop) : {d : Bytes // d.length = k ∧ Q (beNat d)} ≃ {x : Nat // x < 256 ^ k ∧ Q x} where
  toFun d := ⟨beNat d.1, by have := beNat_lt d.1; rw [d.2.1] at this; exact this, d.2.2⟩
  invFun x := ⟨beBytes k x.1, beBytes_length .., by rw [beNat_beBytes, Nat.mod_eq_of_lt x.2.1]; exact x.2.2⟩
  left_inv d := by
    apply Subtype.ext
    have := beBytes_beNat d.1
    rw [d.2.1] at this
    exact this
  right_inv x := by
    apply Subtype.ext
    show beNat (beBytes k x.1) = x.1
    rw [beNat_beBytes, Nat.mod_eq_of_lt x.2.1]

theorem numbers_card (k : Nat) (Q : Nat → Prop) [DecidablePred Q] : Nat.card {d : Bytes // d.length = k ∧ Q (beNat d)} = (256 ^ k).count Q := by
  letI := Nat.CountSet.fintype Q (256 ^ k)
  rw [Nat.card_congr (numbers k Q), Nat.count_eq_card_fintype, Nat.card_eq_fintype_card]

theorem numbers_finite (k : Nat) (Q : Nat → Prop) : Finite {d : Bytes // d.length = k ∧ Q (beNat d)} := by
  have : Finite {x : Nat // x < 256 ^ k ∧ Q x} := Set.Finite.subset (Set.finite_lt_nat (256 ^ k)) fun x hx => hx.1
  exact Finite.of_equiv _ (numbers k Q).symm

/-- The first eight bytes, the bytes used, the bytes not used. -/
abbrev Parts (P : Int → Prop) : Type :=
  (p : {p : Bytes // p.length = 8 ∧ True}) × ({d : Bytes // d.length = used p.1 ∧ P ((beNat d % modulus + 256 : Nat) : Int)} × {t : Bytes // t.length = 92 - used p.1 ∧ True})

theorem parts_ways (P : Int → Prop) : waysOf P = Nat.card (Parts P) := by
  symm
  refine Nat.card_eq_of_bijective (fun x : Parts P => (⟨x.1.1 ++ (x.2.1.1 ++ x.2.2.1), ?_, ?_⟩ : {b : Bytes // b.length = 100 ∧
    ∃ v rng, ((Rng.urandom [b]).between 1 32 : Res TlsError (Int × Rng)) = .ok (v, rng) ∧ P v})) ⟨?_, ?_⟩
  · have := used_le x.1.1
    rw [List.length_append, List.length_append, x.1.2.1, x.2.1.2.1, x.2.2.2.1]; omega
  · obtain ⟨⟨p, hp⟩, ⟨d, hd⟩, ⟨t, ht⟩⟩ := x
    simp only [] at hd ht ⊢
    have := used_le p
    refine ⟨_, _, between_eq _ _ hp.1 (by rw [List.length_append, hd.1, ht.1]; omega), ?_⟩
    rw [← hd.1, List.take_left]
    exact hd.2
  · rintro ⟨⟨p, hp⟩, ⟨d, hd⟩, ⟨t, ht⟩⟩ ⟨⟨p', hp'⟩, ⟨d', hd'⟩, ⟨t', ht'⟩⟩ h
    have h : p ++ (d ++ t) = p' ++ (d' ++ t') := congrArg Subtype.val h
    obtain ⟨rfl, h2⟩ := List.append_inj h (hp.1.trans hp'.1.symm)
    obtain ⟨rfl, rfl⟩ := List.append_inj h2 (hd.1.trans hd'.1.symm)
    rfl
  · rintro ⟨b, hb, v, rng, h, hv⟩
    have h8 : (b.take 8).length = 8 := by rw [List.length_take, hb]; rfl
    have h92 : (b.drop 8).length = 92 := by rw [List.length_drop, hb]
    have hu := used_le (b.take 8)
    have e := between_eq _ _ h8 h92
    rw [List.take_append_drop, h] at e
    cases e
    refine ⟨⟨⟨b.take 8, h8, trivial⟩, ⟨(b.drop 8).take (used (b.take 8)), ?_, hv⟩, ⟨(b.drop 8).drop (used (b.take 8)), ?_, trivial⟩⟩, Subtype.ext ?_⟩
    · rw [List.length_take, h92]; simp only []; omega
    · rw [List.length_drop, h92]
    · simp only [List.take_append_drop]

noncomputable instance : Fintype {p : Bytes // p.length = 8 ∧ True} := @Fintype.ofFinite _ (numbers_finite 8 fun _ => True)

/-- The number of ways, by the number of bytes used. -/
theorem ways_sum (P : Int → Prop) [DecidablePred P] :
    waysOf P = ∑ p : {p : Bytes // p.length = 8 ∧ True}, (256 ^ used p.1).count (fun x => P ((x % modulus + 256 : Nat) : Int)) * 256 ^ (92 - used p.1) := by
  have : ∀ p : {p : Bytes // p.length = 8 ∧ True}, Finite ({d : Bytes // d.length = used p.1 ∧ P ((beNat d % modulus + 256 : Nat) : Int)} ×
      {t : Bytes // t.length = 92 - used p.1 ∧ True}) := fun p =>
    @Finite.instProd _ _ (numbers_finite _ fun x => P ((x % modulus + 256 : Nat) : Int)) (numbers_finite _ fun _ => True)
  rw [parts_ways, Nat.card_sigma]
  refine Finset.sum_congr rfl fun p _ => ?_
  rw [Nat.card_prod, numbers_card _ (fun x => P ((x % modulus + 256 : Nat) : Int)), numbers_card _ (fun _ => True)]
  simp

theorem quotient_large (p : Bytes) : 2 ^ 80 ≤ 256 ^ used p / modulus := by
  rw [Nat.le_div_iff_mul_le (by decide)]
  exact le_trans (by unfold modulus; norm_num : 2 ^ 80 * modulus ≤ 256 ^ 42) (Nat.pow_le_pow_right (by omega) (used_le p).1)

theorem count_value (p : Bytes) (v : Int) (h1 : 2 ^ 8 ≤ v) (h2 : v < 2 ^ 256) :
    256 ^ used p / modulus ≤ (256 ^ used p).count (fun x => ((x % modulus + 256 : Nat) : Int) = v) ∧
    (256 ^ used p).count (fun x => ((x % modulus + 256 : Nat) : Int) = v) ≤ 256 ^ used p / modulus + 1 := by
  obtain ⟨r, rfl⟩ : ∃ r : Nat, v = ((r + 256 : Nat) : Int) := ⟨(v - 256).toNat, by omega⟩
  have hr : r < modulus := by unfold modulus; omega
  have e : (fun x : Nat => ((x % modulus + 256 : Nat) : Int) = ((r + 256 : Nat) : Int)) = fun x => x ≡ r [MOD modulus] := by
    funext x
    apply propext
    unfold Nat.ModEq
    rw [Nat.mod_eq_of_lt hr]
    omega
  have := Nat.count_modEq_card (256 ^ used p) (show 0 < modulus by decide) r
  simp only [e]
  rw [this]
  split <;> omega

theorem scaled {a b q : Nat} (hq : 2 ^ 80 ≤ q) (ha : a ≤ q + 1) (hb : q ≤ b) : a * 2 ^ 80 ≤ b * (2 ^ 80 + 1) := by omega

end RandomProof

open RandomProof in
/-- C108 for the numbers themselves: a private key or a nonce takes every value from 2^8 to 2^256 - 1 and no other; no value is more likely than another by
more than a factor of 1 + 2^-80. -/
theorem C108_even (v w : Int) (hv : 2 ^ 8 ≤ v ∧ v < 2 ^ 256) (hw : 2 ^ 8 ≤ w ∧ w < 2 ^ 256) :
    0 < waysOf (· = w) ∧ waysOf (· = v) * 2 ^ 80 ≤ waysOf (· = w) * (2 ^ 80 + 1) := by
  rw [ways_sum, ways_sum]
  constructor
  · apply Finset.sum_pos
    · intro p _
      have := quotient_large p.1
      have := (count_value p.1 w hw.1 hw.2).1
      exact Nat.mul_pos (by omega) (by positivity)
    · exact ⟨⟨zeros 8, by simp, trivial⟩, Finset.mem_univ _⟩
  · rw [Finset.sum_mul, Finset.sum_mul]
    refine Finset.sum_le_sum fun p _ => ?_
    have := scaled (quotient_large p.1) (count_value p.1 v hv.1 hv.2).2 (count_value p.1 w hw.1 hw.2).1
    rw [mul_right_comm, mul_right_comm _ _ (2 ^ 80 + 1)]
    exact Nat.mul_le_mul_right _ this

/-- C108, nothing outside the range is drawn. -/
theorem C108_range (v : Int) (hv : v < 2 ^ 8 ∨ 2 ^ 256 ≤ v) : waysOf (· = v) = 0 := by
  rw [RandomProof.ways_sum]
  refine Finset.sum_eq_zero fun p _ => ?_
  rw [Nat.mul_eq_zero]
  left
  rw [Nat.count_iff_forall_not]
  intro x _ h
  have h : ((x % RandomProof.modulus + 256 : Nat) : Int) = v := h
  have : x % RandomProof.modulus < RandomProof.modulus := Nat.mod_lt _ (by decide)
  unfold RandomProof.modulus at this h
  omega

/-- C108 in full: also the scalar by which the base point is multiplied in a signature, a nonce modulo the order of the base point, is even: no residue is
more likely than another by more than the same factor. -/
def C108_statement : Prop :=
  ∀ r s : Int, 0 < r → r < P256.n → 0 < s → s < P256.n → waysOf (· % P256.n = r) * 2 ^ 80 ≤ waysOf (· % P256.n = s) * (2 ^ 80 + 1)

namespace RandomProof

theorem count_two (P A B : Nat → Prop) [DecidablePred P] [DecidablePred A] [DecidablePred B] (ha : ∀ x, A x → P x) (hb : ∀ x, B x → P x) (hd : ∀ x, A x → ¬ B x)
    (n : Nat) : n.count A + n.count B ≤ n.count P := by
  induction n with
  | zero => simp
  | succ n ih =>
    rw [Nat.count_succ, Nat.count_succ, Nat.count_succ]
    by_cases h1 : A n
    · have h2 := hd n h1
      rw [if_pos h1, if_neg h2, if_pos (ha n h1)]
      omega
    · rw [if_neg h1]
      by_cases h2 : B n
      · rw [if_pos h2, if_pos (hb n h2)]; omega
      · rw [if_neg h2]; omega

theorem ways_two (P : Int → Prop) [DecidablePred P] (v w : Int) (hv : P v) (hw : P w) (hne : v ≠ w) : waysOf (· = v) + waysOf (· = w) ≤ waysOf P := by
  rw [ways_sum, ways_sum, ways_sum, ← Finset.sum_add_distrib]
  refine Finset.sum_le_sum fun p _ => ?_
  rw [← Nat.add_mul]
  refine Nat.mul_le_mul_right _ (count_two _ _ _ ?_ ?_ ?_ _)
  · intro x h; rw [h]; exact hv
  · intro x h; rw [h]; exact hw
  · intro x h1 h2; exact hne (h1.symm.trans h2)

/-- Only the values in the range matter. -/
theorem ways_congr {P Q : Int → Prop} [DecidablePred P] [DecidablePred Q] (h : ∀ v : Int, 2 ^ 8 ≤ v → v < 2 ^ 256 → (P v ↔ Q v)) : waysOf P = waysOf Q := by
  have e : ∀ x : Nat, P ((x % modulus + 256 : Nat) : Int) ↔ Q ((x % modulus + 256 : Nat) : Int) := by
    intro x
    have : x % modulus < modulus := Nat.mod_lt _ (by decide)
    unfold modulus at this ⊢
    exact h _ (by omega) (by omega)
  rw [ways_sum, ways_sum]
  refine Finset.sum_congr rfl fun p _ => ?_
  simp only [e]

end RandomProof

open RandomProof in
/-- C108, how uneven the scalar of a signature is: the residues from 2^8 to 2^256 - n - 1 come from two numbers each, those from there to n - 1 from one, and
those from 1 to 2^8 - 1 from one. -/
theorem C108_residues (r : Int) (h0 : 0 < r) (hn : r < P256.n) :
    (r < 2 ^ 8 → waysOf (· % P256.n = r) = waysOf (· = r + P256.n)) ∧
    (2 ^ 8 ≤ r → r < 2 ^ 256 - P256.n → waysOf (· % P256.n = r) = waysOf fun v => v = r ∨ v = r + P256.n) ∧
    (2 ^ 256 - P256.n ≤ r → waysOf (· % P256.n = r) = waysOf (· = r)) := by
  have hb : ∀ v : Int, 2 ^ 8 ≤ v → v < 2 ^ 256 → v % (P256.n : Int) = if v < P256.n then v else v - P256.n := by
    intro v h1 h2
    split
    · rename_i h; exact Int.emod_eq_of_lt (by omega) h
    · rename_i h
      unfold P256.n at h ⊢
      omega
  refine ⟨fun h => ways_congr fun v h1 h2 => ?_, fun h h' => ways_congr fun v h1 h2 => ?_, fun h => ways_congr fun v h1 h2 => ?_⟩ <;>
  · rw [hb v h1 h2]
    split <;> unfold P256.n at * <;> omega

open RandomProof in
/-- C108 in full is false: a residue that comes from two numbers is twice as likely as one that comes from one. -/
theorem C108_false : ¬ C108_statement := by
  intro h
  have := h 256 (P256.n - 1) (by norm_num) (by unfold P256.n; norm_num) (by unfold P256.n; norm_num) (by omega)
  rw [(C108_residues (P256.n - 1) (by unfold P256.n; norm_num) (by omega)).2.2 (by unfold P256.n; norm_num)] at this
  have h2 := ways_two (· % (P256.n : Int) = 256) 256 (256 + P256.n) (by unfold P256.n; norm_num) (by unfold P256.n; norm_num) (by unfold P256.n; norm_num)
  have r0 : (2 : Int) ^ 8 ≤ P256.n - 1 ∧ (P256.n : Int) - 1 < 2 ^ 256 := by unfold P256.n; norm_num
  obtain ⟨_, h3⟩ := C108_even (P256.n - 1) 256 r0 (by norm_num)
  obtain ⟨h5, _⟩ := C108_even 256 (P256.n - 1) (by norm_num) r0
  obtain ⟨_, h4⟩ := C108_even (P256.n - 1) (256 + P256.n) r0 (by unfold P256.n; norm_num)
  generalize waysOf (· = (P256.n : Int) - 1) = a at *
  generalize waysOf (· = (256 : Int)) = b at *
  generalize waysOf (· = (256 : Int) + P256.n) = c at *
  generalize waysOf (· % (P256.n : Int) = 256) = d at *
  omega

/-! ### No random bytes are used twice -/

/-- The number is drawn from this read. -/
def DrawnFrom (b : Bytes) (n : Int) : Prop := ((Rng.urandom [b]).between 1 32 : Res TlsError (Int × Rng)) = .ok (n, .urandom [])

namespace RandomProof

theorem between_one {reads : List Bytes} {n : Int} {rng : Rng} (h : ((Rng.urandom reads).between 1 32 : Res TlsError (Int × Rng)) = .ok (n, rng)) :
    ∃ a rest, reads = a :: rest ∧ DrawnFrom a n ∧ rng = .urandom rest := by
  cases reads with
  | nil => cases h
  | cons a rest =>
    refine ⟨a, rest, rfl, ?_⟩
    unfold DrawnFrom
    unfold Rng.between URandomRng.next readFromUrandom at h ⊢
    simp only [] at h ⊢
    split at h
    · rename_i hl
      rw [if_pos hl]
      simp only [Res.ok_bind] at h ⊢
      cases h1 : (slice a 0 8 : Res TlsError Bytes) with
      | ok s =>
        rw [h1] at h
        simp only [Res.ok_bind] at h ⊢
        cases h2 : (toU64Le s : Res TlsError (BitVec 64)) with
        | ok u =>
          rw [h2] at h
          simp only [Res.ok_bind] at h ⊢
          cases h3 : (slice a 8 (u.toNat % 50 + 50) : Res TlsError Bytes) with
          | ok d =>
            rw [h3] at h
            simp only [Res.ok_bind] at h ⊢
            rw [if_neg (by norm_num)] at h ⊢
            cases h
            exact ⟨rfl, rfl⟩
          | err e => rw [h3] at h; cases h
          | panic => rw [h3] at h; cases h
        | err e => rw [h2] at h; cases h
        | panic => rw [h2] at h; cases h
      | err e => rw [h1] at h; cases h
      | panic => rw [h1] at h; cases h
    · cases h

theorem bytes_one {reads : List Bytes} {b : Bytes} {rng : Rng} (h : ((Rng.urandom reads).bytes 32 : Res TlsError (Bytes × Rng)) = .ok (b, rng)) :
    ∃ a rest, reads = a :: rest ∧ b = a.take 32 ∧ rng = .urandom rest := by
  cases reads with
  | nil => cases h
  | cons a rest =>
    refine ⟨a, rest, rfl, ?_⟩
    unfold Rng.bytes readFromUrandom at h
    simp only [] at h
    split at h
    · simp only [Res.ok_bind] at h
      unfold slice at h
      split at h
      · cases h
        exact ⟨by simp, rfl⟩
      · cases h
    · cases h

end RandomProof

open RandomProof in
/-- C108, the client: its private key, its random value and its session id are drawn from three different reads. -/
theorem C108_client_separate {env : ClientEnv} {reads : List Bytes} {n : Int} {ch : Bytes} (h : Offered env reads n ch) :
    ∃ a b c rest, reads = a :: b :: c :: rest ∧ DrawnFrom a n ∧
      ch = Tls13.handshakeMessage 1#8 (Tls13.clientOffer (b.take 32) (c.take 32) (publicShare n) env.config.serverName).bytes := by
  obtain ⟨rng1, rng2, rng3, random, sid, h1, h2, h3, _, _, _, _, hch⟩ := h
  obtain ⟨a, r1, rfl, ha, rfl⟩ := between_one h1
  obtain ⟨b, r2, rfl, rfl, rfl⟩ := bytes_one h2
  obtain ⟨c, r3, rfl, rfl, rfl⟩ := bytes_one h3
  exact ⟨a, b, c, r3, rfl, ha, hch⟩

namespace RandomProof

/-- The private key so far was drawn from one of the reads that are used up. -/
def Spent (base : List Bytes) (s : ServerHello.Negotiation) : Prop :=
  ∃ before after, base = before ++ after ∧ s.rng = .urandom after ∧ ∀ pk, s.privateKey = some pk → ∃ b ∈ before, DrawnFrom b pk.secret

theorem share_spent {base : List Bytes} (entries : List KeyShareEntry) : ∀ {s s' : ServerHello.Negotiation}, Spent base s →
    ServerHello.keyShareLoop entries s = .ok s' → Spent base s' := by
  induction entries with
  | nil => intro s s' h e; cases e; exact h
  | cons key rest ih =>
    intro s s' h e
    unfold ServerHello.keyShareLoop at e
    cases hg : key.group with
    | x25519 =>
      rw [hg] at e
      simp only [] at e
      obtain ⟨before, after, rfl, hr, _⟩ := h
      rw [hr] at e
      obtain ⟨⟨n, rng⟩, e1, e⟩ := Res.bind_eq_ok.1 e
      obtain ⟨a, rest', rfl, ha, rfl⟩ := between_one e1
      simp only [] at e
      split at e
      case h_2 => cases e
      case h_3 => cases e
      simp only [Res.ok_bind] at e
      cases e
      refine ⟨before ++ [a], rest', by simp, rfl, fun pk hpk => ?_⟩
      cases hpk
      exact ⟨a, by simp, ha⟩
    | secp256r1 => rw [hg] at e; cases e
    | _ => rw [hg] at e; exact ih h e

theorem extension_spent {base : List Bytes} {name : Option Bytes} {s s' : ServerHello.Negotiation} {x : ClientExtension} (h : Spent base s)
    (e : ServerHello.onExtension name s x = .ok s') : Spent base s' := by
  cases x with
  | keyShare k => exact share_spent _ h e
  | supportedVersion b => cases b <;> cases e; exact h
  | supportedGroups _ => cases e; exact h
  | serverName n =>
    unfold ServerHello.onExtension at e
    simp only [] at e
    split at e
    · split at e <;> cases e
      exact h
    · cases e; exact h
  | signatureAlgorithms l =>
    unfold ServerHello.onExtension at e
    simp only [] at e
    split at e <;> cases e
    exact h

theorem extensions_spent {base : List Bytes} {name : Option Bytes} (xs : List ClientExtension) : ∀ {s s' : ServerHello.Negotiation}, Spent base s →
    xs.foldlM (ServerHello.onExtension name) s = .ok s' → Spent base s' := by
  induction xs with
  | nil => intro s s' h e; cases e; exact h
  | cons x xs ih =>
    intro s s' h e
    rw [List.foldlM_cons] at e
    obtain ⟨s1, e1, e2⟩ := Res.bind_eq_ok.1 e
    exact ih (extension_spent h e1) e2

end RandomProof

open RandomProof in
/-- C108, the server: its random value is drawn from the first read, its private key from a later one, and the context of its certificate request from one
after that. -/
theorem C108_server_separate {env : ServerEnv} {reads : List Bytes} {x : FlowProof.Params} {ch sh ccs : Bytes} {rng : Rng} {context : Option Bytes}
    (h : HelloAnsweredBy env reads x ch sh ccs rng) (hd : Drawn env rng context) :
    ∃ (a : Bytes) (before after : List Bytes) (hello : ClientHello) (answer : ServerHello) (body : Bytes) (n : Int) (share : KeyShareEntry), reads = a :: (before ++ after) ∧
      answer.random = a.take 32 ∧ answer.asBytes = .ok body ∧ sh = Tls13.handshakeMessage 2#8 body ∧
      hello.getPublicKeyShare = some share ∧ (∃ curve, sharedSecret ⟨curve, n⟩ share.opaq = .ok x.ecdhe) ∧ (∃ b ∈ before, DrawnFrom b n) ∧
      ∀ c, context = some c → ∃ b rest, after = b :: rest ∧ c = b.take 32 := by
  obtain ⟨hs, hello, answer, pk, share, body, _, _, _, h1, h2, h3, h4, _, h5, _⟩ := h
  unfold ServerHello.fromClientHello at h1
  obtain ⟨⟨random, rng1⟩, e1, h1⟩ := Res.bind_eq_ok.1 h1
  obtain ⟨a, rest, rfl, rfl, rfl⟩ := bytes_one e1
  simp only [] at h1
  split at h1
  · cases h1
  · obtain ⟨s, e2, h1'⟩ := Res.bind_eq_ok.1 h1
    clear h1
    obtain ⟨before, after, rfl, hr, hpk⟩ := extensions_spent _ (base := rest) ⟨[], rest, rfl, rfl, by simp⟩ e2
    split at h1'
    · cases h1'
    · obtain ⟨cs, _, h1'⟩ := Res.bind_eq_ok.1 h1'
      obtain ⟨key, e3, h1'⟩ := Res.bind_eq_ok.1 h1'
      cases h1'
      have hkey : s.privateKey = some pk := by
        unfold Res.okOr at e3
        split at e3 <;> cases e3
        assumption
      refine ⟨a, before, after, hello, _, body, pk.secret, share, rfl, rfl, h2, h3, h4, ⟨pk.curve, h5⟩, hpk pk hkey, fun c hc => ?_⟩
      unfold Drawn at hd
      cases hca : env.config.clientCertCa with
      | none => rw [hca] at hd; simp only [] at hd; rw [hd] at hc; cases hc
      | some ca =>
        rw [hca] at hd
        obtain ⟨c', rng', e4, e5⟩ := hd
        rw [hr] at e4
        obtain ⟨b, rest', e6, e7, _⟩ := bytes_one e4
        rw [e5] at hc
        cases hc
        exact ⟨b, rest', e6, e7⟩

/-- A read of zeros draws 256; the two ends of the range can be met. -/
example : DrawnFrom (zeros 100) 256 ∧ 0 < waysOf (· = 2 ^ 8) ∧ 0 < waysOf (· = 2 ^ 256 - 1) :=
  ⟨by unfold DrawnFrom; decide +kernel, (C108_even (2 ^ 8) (2 ^ 8) (by norm_num) (by norm_num)).1,
    (C108_even (2 ^ 8) (2 ^ 256 - 1) (by norm_num) (by norm_num)).1⟩

/-- The example pair: its client draws as in `C108_client_separate`, its server as in `C108_server_separate`, with a certificate request. -/
example : ∃ (ce : ClientEnv) (se : ServerEnv) (crng srng : List Bytes) (n : Int) (ch sh ccs : Bytes) (x : FlowProof.Params) (rng : Rng) (context : Option Bytes),
    Offered ce crng n ch ∧ HelloAnsweredBy se srng x ch sh ccs rng ∧ Drawn se rng context := by
  obtain ⟨-, ⟨ca, kc, ks, q, r, rng, auth, ws, cws, R⟩⟩ := PairProof.example_runs
  exact ⟨_, _, _, _, _, _, _, _, _, _, _, R.offered, R.client.answered, R.client.drawn⟩

end ATLS
