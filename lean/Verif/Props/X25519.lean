import Verif.Proof.X25519
import Verif.Proof.LadderNat
import Verif.Model.KeyExchange
import Verif.Props.Record
import Verif.Proof.Wire
/-
C32, C33, C65: X25519 and the ECDHE key exchange.
-/
namespace ATLS
open ATLS.Model ATLS.Spec ATLS.XProof ATLS.LadderProof ATLS.Spec.Curve25519

/-! ### C32 -/

/-- C32: the scalar multiplication of the code equals the function X25519 of RFC 7748 for every 32-byte scalar and every
32-byte u coordinate. In particular it returns, so no limb overflows an `i64`. -/
theorem C32_x25519 (k u : Bytes) (hk : k.length = 32) (hu : u.length = 32) :
    Model.X25519.scalarmult u k = .ok (Spec.X25519.x25519 k u) := scalarmult_spec hu hk

/-- C32, meaning: on the u coordinate of any point of Curve25519 it gives the u coordinate of the multiple by the clamped
scalar, in the group of points of the curve. -/
theorem C32_group (k : Bytes) (hk : k.length = 32) (Q : Group) :
    Model.X25519.scalarmult (Spec.X25519.encodeU (u Q)) k =
      .ok (Spec.X25519.encodeU (u (Spec.X25519.decodeScalar k • Q))) := by
  rw [C32_x25519 k _ hk (encode_length _), x25519_u hk]

/-- The specification agrees with the first test vector of RFC 7748 section 5.2, and so does the code. -/
example : Model.X25519.scalarmult
    [0xe6#8, 0xdb#8, 0x68#8, 0x67#8, 0x58#8, 0x30#8, 0x30#8, 0xdb#8, 0x35#8, 0x94#8, 0xc1#8, 0xa4#8, 0x24#8, 0xb1#8, 0x5f#8, 0x7c#8,
     0x72#8, 0x66#8, 0x24#8, 0xec#8, 0x26#8, 0xb3#8, 0x35#8, 0x3b#8, 0x10#8, 0xa9#8, 0x03#8, 0xa6#8, 0xd0#8, 0xab#8, 0x1c#8, 0x4c#8]
    [0xa5#8, 0x46#8, 0xe3#8, 0x6b#8, 0xf0#8, 0x52#8, 0x7c#8, 0x9d#8, 0x3b#8, 0x16#8, 0x15#8, 0x4b#8, 0x82#8, 0x46#8, 0x5e#8, 0xdd#8,
     0x62#8, 0x14#8, 0x4c#8, 0x0a#8, 0xc1#8, 0xfc#8, 0x5a#8, 0x18#8, 0x50#8, 0x6a#8, 0x22#8, 0x44#8, 0xba#8, 0x44#8, 0x9a#8, 0xc4#8] =
    .ok [0xc3#8, 0xda#8, 0x55#8, 0x37#8, 0x9d#8, 0xe9#8, 0xc6#8, 0x90#8, 0x8e#8, 0x94#8, 0xea#8, 0x4d#8, 0xf2#8, 0x8d#8, 0x08#8, 0x4f#8,
     0x32#8, 0xec#8, 0xcf#8, 0x03#8, 0x49#8, 0x1c#8, 0x71#8, 0xf7#8, 0x54#8, 0xb4#8, 0x07#8, 0x55#8, 0x77#8, 0xa2#8, 0x85#8, 0x52#8] := by
  rw [C32_x25519 _ _ (by decide) (by decide), nx25519_eq]
  decide +kernel

/-! ### C33 -/

/-- The 32 scalar bytes made of a private key: its big-endian digits, at the front of the array. -/
def scalarBytes (n : Int) : Bytes := beBytes 32 (n.toNat * 256 ^ (32 - (ubigLe n.toNat).length))

theorem scalarBytes_length (n : Int) : (scalarBytes n).length = 32 := beBytes_length 32 _

theorem scalar_eq {n : Int} (h0 : 0 ≤ n) (h1 : n < 2 ^ 256) : (ibigTo32bytes n .big : Res Unit Bytes) = .ok (scalarBytes n) := by
  obtain ⟨m, rfl⟩ := Int.eq_ofNat_of_zero_le h0
  have : m < 256 ^ 32 := by rw [show (256 : ℕ) ^ 32 = 2 ^ 256 by norm_num]; exact_mod_cast h1
  exact ibigTo32_big m this

theorem big_of_bytes {l : Bytes} (hl : l.length = 32) (h0 : l.getD 0 0 ≠ 0) :
    (ibigTo32bytes (beNat l : Int) .big : Res Unit Bytes) = .ok l := by
  have hlt := beNat_lt l
  rw [hl] at hlt
  have hge : 256 ^ 31 ≤ beNat l := by
    cases l with
    | nil => simp at hl
    | cons b bs =>
      have hb : b ≠ 0 := h0
      have hb' : 1 ≤ b.toNat := by
        rcases Nat.eq_zero_or_pos b.toNat with h | h
        · exact absurd (BitVec.eq_of_toNat_eq h) hb
        · exact h
      rw [show b :: bs = [b] ++ bs from rfl, beNat_append]
      have hbs : bs.length = 31 := by simpa using hl
      rw [hbs]
      have h1 : beNat [b] = b.toNat := by simp [beNat]
      rw [h1]
      nlinarith [Nat.mul_le_mul_right (256 ^ 31) hb']
  rw [ibigTo32_big_full _ hlt hge, ← hl, beBytes_beNat]

theorem multiply_25519 {x n : Int} {px : Bytes} (hpx : (ibigTo32bytes x .big : Res Unit Bytes) = .ok px) (hl : px.length = 32)
    (h0 : 0 ≤ n) (h1 : n < 2 ^ 256) (y : Int) :
    Ec.multiply ⟨x, y⟩ n .curve25519 = .ok ⟨beNat (Spec.X25519.x25519 (scalarBytes n) px), 0⟩ := by
  unfold Ec.multiply
  simp only [Curve.curve25519]
  rw [scalar_eq h0 h1, Res.ok_bind, hpx, Res.ok_bind, C32_x25519 _ _ (scalarBytes_length n) hl, Res.ok_bind, toIbigBe_eq]

theorem u_G : Spec.X25519.encodeU (u G) = 9 :: zeros 31 := by
  have h9 : u G = ((9 : ℕ) : ZMod Spec.X25519.p) := by norm_cast
  rw [h9]
  unfold Spec.X25519.encodeU
  rw [ZMod.val_natCast]
  decide +kernel

/-- The bytes of a public share on the wire. -/
def publicShare (n : Int) : Bytes := Spec.X25519.encodeU (u (Spec.X25519.decodeScalar (scalarBytes n) • G))

theorem publicShare_length (n : Int) : (publicShare n).length = 32 := encode_length _

theorem keyShareOf_eq {n : Int} (h0 : 0 ≤ n) (h1 : n < 2 ^ 256) :
    keyShareOf ⟨.curve25519, n⟩ = .ok ⟨.x25519, (publicShare n).reverse⟩ := by
  unfold keyShareOf PrivateKey.getPublicKey
  have hg : Curve.curve25519.g = ⟨9, Curve.curve25519.g.y⟩ := rfl
  have h9 : (ibigTo32bytes 9 .big : Res Unit Bytes) = .ok (9 :: zeros 31) := by decide +kernel
  simp only []
  rw [hg, multiply_25519 h9 (by decide) h0 h1, ← u_G, x25519_u (scalarBytes_length n)]
  simp only [Res.ok_bind]
  have hl : (publicShare n).length = 32 := publicShare_length n
  obtain ⟨l, hld⟩ : ∃ l, l = publicShare n := ⟨_, rfl⟩
  rw [← hld] at hl ⊢
  unfold publicShare at hld
  rw [← hld]
  have hlt := beNat_lt l
  rw [hl] at hlt
  rw [ibigTo32_little (ε := Unit) (beNat l) hlt, Res.ok_bind]
  congr 2
  rw [← List.reverse_reverse (leBytes 32 _), leBytes_reverse]
  congr 1
  conv_lhs => rw [← hl]
  exact beBytes_beNat _

/-- The entry a peer reads from the wire when it parses the encoding of our key share. -/
theorem wire_eq {n : Int} (h0 : 0 ≤ n) (h1 : n < 2 ^ 256) (rest : Bytes) :
    ∃ k w, keyShareOf ⟨.curve25519, n⟩ = .ok k ∧ k.asBytes = .ok w ∧
      KeyShareEntry.parse (w ++ rest) = .ok (w.length, ⟨.x25519, publicShare n⟩) := by
  refine ⟨_, _, keyShareOf_eq h0 h1, rfl, ?_⟩
  have hl := publicShare_length n
  rw [List.reverse_reverse]
  unfold KeyShareEntry.parse
  have e1 : toU16 ([0x00#8, 0x1d#8, 0x00#8, 0x20#8] ++ publicShare n ++ rest) = 0x1d := by rfl
  have e2 : (sliceFrom ([0x00#8, 0x1d#8, 0x00#8, 0x20#8] ++ publicShare n ++ rest) 2 : Res TlsError Bytes) =
      .ok ([0x00#8, 0x20#8] ++ publicShare n ++ rest) := by
    unfold sliceFrom
    rw [if_pos (by simp)]
    rfl
  have e3 : toU16 ([0x00#8, 0x20#8] ++ publicShare n ++ rest) = 32 := by rfl
  have e4 : (slice ([0x00#8, 0x1d#8, 0x00#8, 0x20#8] ++ publicShare n ++ rest) 4 36 : Res TlsError Bytes) = .ok (publicShare n) := by
    exact WireProof.slice_mid [0x00#8, 0x1d#8, 0x00#8, 0x20#8] (publicShare n) rest rfl (by rw [hl])
  have e5 : NamedGroup.new 0x1d = some .x25519 := by decide
  rw [e1, e2, e5]
  simp only [Res.okOr, Res.ok_bind, e3]
  rw [if_neg (by norm_num), e4, Res.ok_bind]
  simp [hl]

/-- The two ends of a key exchange with the private keys `a` and `b` agree: each sends the encoding of its key share, each
parses the other's, both derive a secret and it is the same one. -/
def Agree (a b : Int) : Prop :=
  ∃ ka wa ka' kb wb kb' s,
    keyShareOf ⟨.curve25519, a⟩ = .ok ka ∧ ka.asBytes = .ok wa ∧ KeyShareEntry.parse wa = .ok (wa.length, ka') ∧
    keyShareOf ⟨.curve25519, b⟩ = .ok kb ∧ kb.asBytes = .ok wb ∧ KeyShareEntry.parse wb = .ok (wb.length, kb') ∧
    sharedSecret ⟨.curve25519, a⟩ kb'.opaq = .ok s ∧ sharedSecret ⟨.curve25519, b⟩ ka'.opaq = .ok s

/-- The full claim of C33: both ends derive the same secret, for every pair of private keys. -/
def C33_statement : Prop :=
  ∀ a b : Int, 0 ≤ a → a < 2 ^ 256 → 0 ≤ b → b < 2 ^ 256 → Agree a b

theorem shared_eq {n : Int} (h0 : 0 ≤ n) (h1 : n < 2 ^ 256) {px share : Bytes}
    (hpx : (ibigTo32bytes (beNat share : Int) .big : Res Unit Bytes) = .ok px) (hl : px.length = 32) :
    sharedSecret ⟨.curve25519, n⟩ share = ibigTo32bytes (beNat (Spec.X25519.x25519 (scalarBytes n) px) : Int) .big := by
  unfold sharedSecret
  rw [toIbigBe_eq]
  simp only []
  rw [multiply_25519 hpx hl h0 h1, Res.ok_bind]

/-- C33 is false of the code: with the private keys 274 and 256 the first key share starts with a zero byte, which the second
end drops when it reads the share as a number; the two secrets differ. -/
theorem C33_false : ¬ C33_statement := by
  intro h
  obtain ⟨ka, wa, ka', kb, wb, kb', s, h1, h2, h3, h4, h5, h6, h7, h8⟩ := h 274 256 (by norm_num) (by norm_num) (by norm_num) (by norm_num)
  obtain ⟨k, w, g1, g2, g3⟩ := wire_eq (n := 274) (by norm_num) (by norm_num) []
  rw [g1] at h1; cases h1
  rw [g2] at h2; cases h2
  rw [List.append_nil] at g3
  rw [g3] at h3; cases h3
  obtain ⟨k, w, g1, g2, g3⟩ := wire_eq (n := 256) (by norm_num) (by norm_num) []
  rw [g1] at h4; cases h4
  rw [g2] at h5; cases h5
  rw [List.append_nil] at g3
  rw [g3] at h6; cases h6
  have pa : publicShare 274 = nx25519 (scalarBytes 274) (9 :: zeros 31) := by
    unfold publicShare; rw [← x25519_u (scalarBytes_length _), u_G, nx25519_eq]
  have pb : publicShare 256 = nx25519 (scalarBytes 256) (9 :: zeros 31) := by
    unfold publicShare; rw [← x25519_u (scalarBytes_length _), u_G, nx25519_eq]
  have va : nx25519 (scalarBytes 274) (9 :: zeros 31) = [0x00#8, 0xee#8, 0xc4#8, 0xce#8, 0xd4#8, 0x9f#8, 0xca#8, 0xe3#8, 0xea#8, 0x8a#8,
    0x9d#8, 0xae#8, 0x46#8, 0xed#8, 0x06#8, 0xc3#8, 0x2c#8, 0x16#8, 0xf5#8, 0x6a#8, 0xbb#8, 0x66#8, 0xd8#8, 0xa9#8, 0x4f#8, 0x3f#8, 0xe6#8,
    0x78#8, 0xb2#8, 0x7f#8, 0x57#8, 0x3f#8] := by decide +kernel
  have hs1 : sharedSecret ⟨.curve25519, 256⟩ (publicShare 274) =
      ibigTo32bytes (beNat (nx25519 (scalarBytes 256) ((nx25519 (scalarBytes 274) (9 :: zeros 31)).tail ++ [0])) : Int) .big := by
    rw [pa, ← nx25519_eq (scalarBytes 256)]
    apply shared_eq (by norm_num) (by norm_num)
    · rw [va]; decide +kernel
    · rw [va]; decide
  have hs2 : sharedSecret ⟨.curve25519, 274⟩ (publicShare 256) =
      ibigTo32bytes (beNat (nx25519 (scalarBytes 274) (nx25519 (scalarBytes 256) (9 :: zeros 31))) : Int) .big := by
    rw [pb, ← nx25519_eq (scalarBytes 274)]
    apply shared_eq (by norm_num) (by norm_num)
    · apply big_of_bytes
      · decide +kernel
      · decide +kernel
    · decide +kernel
  rw [hs1] at h8
  rw [hs2, ← h8] at h7
  revert h7
  decide +kernel

/-- What holds instead of C33. For every pair of private keys both ends produce key shares that arrive intact, the shares are
the u coordinates of multiples of the base point, and when neither share starts with a zero byte the two ends derive the
same secret: the u coordinate of the product (when that one does not start with a zero byte either). Missing: shares that
start with a zero byte (`C33_false`). -/
theorem C33_ecdh_partial (a b : Int) (ha : 0 ≤ a) (ha' : a < 2 ^ 256) (hb : 0 ≤ b) (hb' : b < 2 ^ 256) :
    ∃ m n : ℕ, ∃ ka wa kb wb,
      keyShareOf ⟨.curve25519, a⟩ = .ok ka ∧ ka.asBytes = .ok wa ∧
      KeyShareEntry.parse wa = .ok (wa.length, ⟨.x25519, Spec.X25519.encodeU (u (m • G))⟩) ∧
      keyShareOf ⟨.curve25519, b⟩ = .ok kb ∧ kb.asBytes = .ok wb ∧
      KeyShareEntry.parse wb = .ok (wb.length, ⟨.x25519, Spec.X25519.encodeU (u (n • G))⟩) ∧
      ((Spec.X25519.encodeU (u (m • G))).getD 0 0 ≠ 0 → (Spec.X25519.encodeU (u (n • G))).getD 0 0 ≠ 0 →
        ∃ s, sharedSecret ⟨.curve25519, a⟩ (Spec.X25519.encodeU (u (n • G))) = .ok s ∧
          sharedSecret ⟨.curve25519, b⟩ (Spec.X25519.encodeU (u (m • G))) = .ok s ∧ s.length = 32 ∧
          ((Spec.X25519.encodeU (u ((m * n) • G))).getD 0 0 ≠ 0 → s = Spec.X25519.encodeU (u ((m * n) • G)))) := by
  obtain ⟨ka, wa, g1, g2, g3⟩ := wire_eq ha ha' []
  obtain ⟨kb, wb, g4, g5, g6⟩ := wire_eq hb hb' []
  rw [List.append_nil] at g3 g6
  refine ⟨_, _, ka, wa, kb, wb, g1, g2, g3, g4, g5, g6, ?_⟩
  intro hma hmb
  have e1 := shared_eq ha ha' (big_of_bytes (encode_length _) hmb) (encode_length _)
  have e2 := shared_eq hb hb' (big_of_bytes (encode_length _) hma) (encode_length _)
  rw [x25519_u (scalarBytes_length a), smul_smul] at e1
  rw [x25519_u (scalarBytes_length b), smul_smul, mul_comm] at e2
  obtain ⟨v, hv⟩ : ∃ v, v = Spec.X25519.encodeU (u ((Spec.X25519.decodeScalar (scalarBytes a) * Spec.X25519.decodeScalar (scalarBytes b)) • G)) :=
    ⟨_, rfl⟩
  rw [← hv] at e1 e2 ⊢
  have hvl : v.length = 32 := by rw [hv]; exact encode_length _
  have hlt := beNat_lt v
  rw [hvl] at hlt
  refine ⟨_, e1.trans (ibigTo32_big _ hlt), e2.trans (ibigTo32_big _ hlt), beBytes_length 32 _, ?_⟩
  intro hnz
  have h1 := big_of_bytes hvl hnz
  rw [ibigTo32_big _ hlt] at h1
  exact Res.ok.inj h1

/-- Two private keys whose shares do not start with a zero byte agree. -/
theorem agree_of {a b : Int} (ha : 0 ≤ a) (ha' : a < 2 ^ 256) (hb : 0 ≤ b) (hb' : b < 2 ^ 256)
    (h1 : (publicShare a).getD 0 0 ≠ 0) (h2 : (publicShare b).getD 0 0 ≠ 0) : Agree a b := by
  obtain ⟨ka, wa, g1, g2, g3⟩ := wire_eq ha ha' []
  obtain ⟨kb, wb, g4, g5, g6⟩ := wire_eq hb hb' []
  rw [List.append_nil] at g3 g6
  have e1 := shared_eq ha ha' (big_of_bytes (publicShare_length b) h2) (publicShare_length b)
  have e2 := shared_eq hb hb' (big_of_bytes (publicShare_length a) h1) (publicShare_length a)
  have hc : Spec.X25519.x25519 (scalarBytes a) (publicShare b) = Spec.X25519.x25519 (scalarBytes b) (publicShare a) := by
    unfold publicShare
    rw [x25519_u (scalarBytes_length a), x25519_u (scalarBytes_length b), smul_smul, smul_smul, mul_comm]
  rw [hc] at e1
  obtain ⟨v, hv⟩ : ∃ v, v = Spec.X25519.x25519 (scalarBytes b) (publicShare a) := ⟨_, rfl⟩
  rw [← hv] at e1 e2
  have hlt := beNat_lt v
  rw [show v.length = 32 by rw [hv]; exact encode_length _] at hlt
  exact ⟨ka, wa, _, kb, wb, _, _, g1, g2, g3, g4, g5, g6, e1.trans (ibigTo32_big _ hlt), e2.trans (ibigTo32_big _ hlt)⟩

theorem publicShare_n (n : Int) : publicShare n = nx25519 (scalarBytes n) (9 :: zeros 31) := by
  unfold publicShare; rw [← x25519_u (scalarBytes_length _), u_G, nx25519_eq]

/-- The guard is met, for example by the private keys 256 and 257. -/
example : Agree 256 257 :=
  agree_of (by norm_num) (by norm_num) (by norm_num) (by norm_num) (by rw [publicShare_n]; decide +kernel)
    (by rw [publicShare_n]; decide +kernel)

/-! ### C65 -/

/-- The full claim of C65: when the shared secret is all zero the key exchange is refused (RFC 8446 section 7.4.2). -/
def C65_statement : Prop :=
  ∀ (ts : TsHash) (n : Int) (share : Bytes), 0 ≤ n → n < 2 ^ 256 → sharedSecret ⟨.curve25519, n⟩ share = .ok (zeros 32) →
    ∃ e, KeySchedule.fromHandshake ts ⟨.curve25519, n⟩ ⟨.x25519, share⟩ = .err e

theorem zero_share {n : Int} (h0 : 0 ≤ n) (h1 : n < 2 ^ 256) : sharedSecret ⟨.curve25519, n⟩ (zeros 32) = .ok (zeros 32) := by
  have hz : (ibigTo32bytes ((beNat (zeros 32) : ℕ) : Int) .big : Res Unit Bytes) = .ok (zeros 32) := by decide +kernel
  rw [shared_eq h0 h1 hz (by decide)]
  have : Spec.X25519.x25519 (scalarBytes n) (zeros 32) = zeros 32 := by
    unfold Spec.X25519.x25519
    have hd : Spec.X25519.decodeU (zeros 32) = 0 := by
      unfold Spec.X25519.decodeU
      rw [show leNat ((zeros 32).set 31 ((zeros 32).getD 31 0 &&& 127)) = 0 by decide]
      exact Nat.cast_zero
    rw [hd, ladder_zero]
    unfold Spec.X25519.encodeU
    rw [ZMod.val_zero]
    decide
  rw [this, hz]

theorem fromHandshake_ok (ts : TsHash) {n : Int} {share s : Bytes} (hs : sharedSecret ⟨.curve25519, n⟩ share = .ok s)
    (hl : s.length < 2 ^ 50) :
    ∃ ks, KeySchedule.fromHandshake ts ⟨.curve25519, n⟩ ⟨.x25519, share⟩ = .ok ks := by
  unfold KeySchedule.fromHandshake
  rw [if_neg (by simp)]
  simp only []
  rw [hs]
  have hf : ts.finalize.length = (rfcHash ts.getType).out := by cases ts <;> simp [TsHash.finalize] <;> rfl
  simp only [Res.mapErr, Res.ok_bind]
  rw [C25_secrets ts.getType ts.finalize s hf hl]
  exact ⟨_, rfl⟩

/-- C65 is false of the code: a peer that sends 32 zero bytes as its share makes the shared secret all zero, whatever our
private key, and the key schedule is built from it. -/
theorem C65_false : ¬ C65_statement ∧
    ∀ (ts : TsHash) (n : Int), 0 ≤ n → n < 2 ^ 256 → sharedSecret ⟨.curve25519, n⟩ (zeros 32) = .ok (zeros 32) ∧
      ∃ ks, KeySchedule.fromHandshake ts ⟨.curve25519, n⟩ ⟨.x25519, zeros 32⟩ = .ok ks := by
  have h2 : ∀ (ts : TsHash) (n : Int), 0 ≤ n → n < 2 ^ 256 → sharedSecret ⟨.curve25519, n⟩ (zeros 32) = .ok (zeros 32) ∧
      ∃ ks, KeySchedule.fromHandshake ts ⟨.curve25519, n⟩ ⟨.x25519, zeros 32⟩ = .ok ks :=
    fun ts n h0 h1 => ⟨zero_share h0 h1, fromHandshake_ok ts (zero_share h0 h1) (by decide)⟩
  refine ⟨fun h => ?_, h2⟩
  obtain ⟨h3, ks, h4⟩ := h2 (TsHash.new .sha256) 256 (by norm_num) (by norm_num)
  obtain ⟨e, he⟩ := h (TsHash.new .sha256) 256 (zeros 32) (by norm_num) (by norm_num) h3
  rw [h4] at he
  cases he

theorem encode_zero {v : ZMod Spec.X25519.p} (h : Spec.X25519.encodeU v = zeros 32) : v = 0 := by
  have h1 := decode_encode v
  rw [h] at h1
  rw [← h1]
  unfold Spec.X25519.decodeU
  rw [show leNat ((zeros 32).set 31 ((zeros 32).getD 31 0 &&& 127)) = 0 by decide]
  exact Nat.cast_zero

/-- What holds instead of C65: with an honest peer, whose share comes from its own private key and does not start with a zero
byte, the shared secret is never all zero. Missing: shares of small order are not refused (`C65_false`). -/
theorem C65_honest_partial (a b : Int) (ha : 0 ≤ a) (ha' : a < 2 ^ 256) (hb : 0 ≤ b) (hb' : b < 2 ^ 256) (kb kb' : KeyShareEntry)
    (wb : Bytes) (h1 : keyShareOf ⟨.curve25519, b⟩ = .ok kb) (h2 : kb.asBytes = .ok wb)
    (h3 : KeyShareEntry.parse wb = .ok (wb.length, kb')) (h4 : kb'.opaq.getD 0 0 ≠ 0) :
    ∃ s, sharedSecret ⟨.curve25519, a⟩ kb'.opaq = .ok s ∧ s ≠ zeros 32 := by
  obtain ⟨k, w, g4, g5, g6⟩ := wire_eq hb hb' []
  rw [List.append_nil] at g6
  rw [g4] at h1; cases h1
  rw [g5] at h2; cases h2
  rw [g6] at h3
  have hk : kb' = ⟨.x25519, publicShare b⟩ := by
    have := Res.ok.inj h3
    exact (Prod.mk.inj this).2.symm
  subst hk
  have e1 := shared_eq ha ha' (big_of_bytes (publicShare_length b) h4) (publicShare_length b)
  have hv : Spec.X25519.x25519 (scalarBytes a) (publicShare b) ≠ zeros 32 := by
    unfold publicShare
    rw [x25519_u (scalarBytes_length a), smul_smul]
    intro hz
    have := u_smul_eq_zero (encode_zero hz)
    rcases (Nat.Prime.dvd_mul ell_prime).mp this with h | h
    · exact clamped_not_dvd (scalarBytes_length a) h
    · exact clamped_not_dvd (scalarBytes_length b) h
  obtain ⟨v, hvd⟩ : ∃ v, v = Spec.X25519.x25519 (scalarBytes a) (publicShare b) := ⟨_, rfl⟩
  rw [← hvd] at e1 hv
  have hvl : v.length = 32 := by rw [hvd]; exact encode_length _
  have hlt := beNat_lt v
  rw [hvl] at hlt
  refine ⟨_, e1.trans (ibigTo32_big _ hlt), ?_⟩
  intro hz
  have hpos : beNat v ≠ 0 := by
    intro h0
    apply hv
    rw [← beBytes_beNat v, h0, hvl]
    decide
  have hle := ubigLe_length_le hlt
  have : beNat (beBytes 32 (beNat v * 256 ^ (32 - (ubigLe (beNat v)).length))) = 0 := by rw [hz]; decide
  rw [beNat_beBytes] at this
  have hb : beNat v < 256 ^ (ubigLe (beNat v)).length := by
    conv_lhs => rw [← leNat_ubigLe (beNat v)]
    exact leNat_lt _
  have hlt2 : beNat v * 256 ^ (32 - (ubigLe (beNat v)).length) < 256 ^ 32 := by
    calc beNat v * 256 ^ (32 - (ubigLe (beNat v)).length) < 256 ^ (ubigLe (beNat v)).length * 256 ^ (32 - (ubigLe (beNat v)).length) :=
          Nat.mul_lt_mul_of_pos_right hb (by positivity)
      _ = 256 ^ 32 := by rw [← pow_add]; congr 1; omega
  rw [Nat.mod_eq_of_lt hlt2] at this
  exact absurd this (Nat.mul_ne_zero hpos (by positivity))

example : (publicShare 256).getD 0 0 ≠ 0 := by rw [publicShare_n]; decide +kernel

end ATLS
