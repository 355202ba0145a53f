import Verif.Spec.Offer
import Verif.Props.Answer
import Verif.Props.RfcClientExample
import Verif.Props.Negotiation
/-
C111: which ClientHello the server accepts.
-/
namespace ATLS
open ATLS.Model ATLS.Spec FlowProof RfcProof

/-- C111 for the condition `A` on the client's first message: when `accept` hands out a stream, and what arrives starts with a whole handshake record,
however it is split into reads, then what this record contains satisfies `A`. -/
def C111_for (A : Bytes → Prop) : Prop :=
  ∀ (env : ServerEnv) (reads : List Bytes) (sock : Socket) (s : TlsStream) (h : ServerHandshake) (message record more : Bytes),
    env.config.cert.raw.length < 2 ^ 24 → sock.incoming.flatten = record ++ more → Tls13.IsRecord 22#8 message record →
    ServerConnection.accept env reads sock = (.ok s, h) → A message

/-- C111, in full. It is false: `C111_false`. -/
def C111_statement : Prop := C111_for Tls13.PermittedOffer

namespace OfferProof
open ServerProof AnswerProof

theorem entry_bytes {rest : Bytes} {used : Nat} {y : KeyShareEntry} (h3 : KeyShareEntry.parse rest = .ok (used, y)) (hg : y.group = .x25519) :
    Tls13.share (29, y.opaq) <+: rest := by
  unfold KeyShareEntry.parse at h3
  obtain ⟨g, g1, h3⟩ := Res.bind_eq_ok.1 h3
  obtain ⟨r2, g2, h3⟩ := Res.bind_eq_ok.1 h3
  simp only [] at h3
  split_ifs at h3
  obtain ⟨o, g3, h3⟩ := Res.bind_eq_ok.1 h3
  obtain ⟨-, rfl⟩ := Prod.mk.inj (Res.ok.inj h3)
  obtain ⟨d3, l3⟩ := drop_slice g3
  obtain ⟨_, _, hlen, _⟩ := slice_split g3
  have hr2 : r2 = rest.drop 2 := by
    simp only [sliceFrom] at g2
    split_ifs at g2
    exact (Res.ok.inj g2).symm
  subst hr2
  have hgroup : toU16 rest = 29 := by
    have hg : g = .x25519 := hg
    subst hg
    exact group_x25519 g1
  rcases rest with _ | ⟨a, _ | ⟨b, _ | ⟨c, _ | ⟨d, r⟩⟩⟩⟩
  iterate 4 (simp only [List.length_cons, List.length_nil] at hlen; omega)
  rw [show List.drop 2 (a :: b :: c :: d :: r) = c :: d :: r from rfl, WireProof.toU16_cons] at d3 l3
  rw [WireProof.toU16_cons] at hgroup
  rw [show List.drop 4 (a :: b :: c :: d :: r) = r from rfl] at d3
  have h1 := u16_bytes a b
  have h2 := u16_bytes c d
  rw [WireProof.shl_or _ _ b.isLt, hgroup] at h1
  rw [WireProof.shl_or _ _ d.isLt] at h2
  refine ⟨List.drop (c.toNat * 256 + d.toNat + 4) (a :: b :: c :: d :: r), ?_⟩
  have hl : o.length = c.toNat * 256 + d.toNat := by omega
  simp only [Tls13.share, Tls13.vec2]
  rw [← h1, hl, ← h2]
  simp only [List.append_assoc, List.cons_append, List.nil_append]
  rw [← d3]

theorem loop_head : ∀ (fuel : Nat) (rest : Bytes) (c len : Nat) (acc es : List KeyShareEntry), KeyShare.parseLoop fuel rest c len acc = .ok es →
    (∀ y, acc.head? = some y → es.head? = some y) ∧
    (acc = [] → ∀ y, es.head? = some y → ∃ used, KeyShareEntry.parse rest = .ok (used, y)) := by
  intro fuel
  induction fuel with
  | zero => intro rest c len acc es h; cases h
  | succ fuel ih =>
    intro rest c len acc es h
    unfold KeyShare.parseLoop at h
    obtain ⟨⟨used, e⟩, h3, h2⟩ := Res.bind_eq_ok.1 h
    simp only [] at h2
    split_ifs at h2
    · obtain rfl := Res.ok.inj h2
      exact ⟨fun y hy => hy, fun ha y hy => by rw [ha] at hy; cases hy⟩
    · obtain rfl := Res.ok.inj h2
      refine ⟨fun y hy => by rw [List.head?_append, hy]; rfl, fun ha y hy => ?_⟩
      rw [ha] at hy
      obtain rfl := Option.some.inj hy
      exact ⟨used, h3⟩
    · obtain ⟨i1, i2⟩ := ih _ _ _ _ _ h2
      refine ⟨fun y hy => i1 y (by rw [List.head?_append, hy]; rfl), fun ha y hy => ?_⟩
      have := i1 e (by rw [ha]; rfl)
      rw [this] at hy
      obtain rfl := Option.some.inj hy
      exact ⟨used, h3⟩

theorem share_from {body : Bytes} {k : KeyShare} {y : KeyShareEntry} (h : KeyShare.parse body false = .ok k) (hy : k.entries.head? = some y)
    (hg : y.group = .x25519) : ∃ total shares : Bytes, total.length = 2 ∧ body = total ++ Tls13.share (29, y.opaq) ++ shares := by
  unfold KeyShare.parse at h
  obtain ⟨rest, h1, h⟩ := Res.bind_eq_ok.1 h
  obtain ⟨es, h2, h⟩ := Res.bind_eq_ok.1 h
  obtain rfl := Res.ok.inj h
  have hr : 2 ≤ body.length ∧ rest = body.drop 2 := by
    simp only [Bool.false_eq_true, if_false, sliceFrom] at h1
    split_ifs at h1 with hl
    · exact ⟨hl, (Res.ok.inj h1).symm⟩
  obtain ⟨hl, rfl⟩ := hr
  obtain ⟨_, h3⟩ := loop_head _ _ _ _ _ _ h2
  obtain ⟨used, h4⟩ := h3 rfl y hy
  obtain ⟨q, hq⟩ := entry_bytes h4 hg
  refine ⟨body.take 2, q, by rw [List.length_take]; omega, ?_⟩
  rw [List.append_assoc, hq, List.take_append_drop]

/-- What the key shares that are read come from. -/
theorem shares_from (k : KeyShare) : ∀ (fuel : Nat) (rest : Bytes) (acc exts : List ClientExtension), fromClientHelloLoop fuel rest acc = .ok exts →
    .keyShare k ∈ exts → .keyShare k ∈ acc ∨
      ∃ (front : List (Nat × Bytes)) (body back : Bytes), rest = (front.map Tls13.extension).flatten ++ Tls13.extension (51, body) ++ back ∧
        (∀ e ∈ front, e.1 < 65536 ∧ e.2.length < 65536) ∧ body.length < 65536 ∧ KeyShare.parse body false = .ok k := by
  intro fuel
  induction fuel with
  | zero =>
    intro rest acc exts h he
    unfold fromClientHelloLoop at h
    split_ifs at h
    obtain rfl := Res.ok.inj h
    exact .inl he
  | succ fuel ih =>
    intro rest acc exts h he
    unfold fromClientHelloLoop at h
    split_ifs at h
    · obtain rfl := Res.ok.inj h
      exact .inl he
    obtain ⟨t, h1, h⟩ := Res.bind_eq_ok.1 h
    obtain ⟨sz, h2, h⟩ := Res.bind_eq_ok.1 h
    simp only [] at h
    obtain ⟨d1, l1⟩ := drop_slice h1
    obtain ⟨d2, l2⟩ := drop_slice h2
    have ht := toU16_two (i := 0) h1
    have hsz := toU16_two (i := 2) h2
    have hlt : ∀ a : Bytes, a.length = 2 → toU16 a < 65536 := by
      intro a ha
      rcases a with _ | ⟨b0, _ | ⟨b1, _ | ⟨b2, tl⟩⟩⟩ <;> simp at ha
      rw [WireProof.toU16_cons]
      have := b0.isLt
      have := b1.isLt
      omega
    have hrest : rest = t ++ sz ++ rest.drop 4 := by
      rw [List.append_assoc, ← d2, ← d1, List.drop_zero]
    -- the extension at the front, when it is whole
    have whole : 4 + toU16 sz ≤ rest.length → ∃ body : Bytes, body.length = toU16 sz ∧ body = (rest.drop 4).take (toU16 sz) ∧
        rest = Tls13.extension (toU16 t, body) ++ rest.drop (4 + toU16 sz) := by
      intro hw
      refine ⟨(rest.drop 4).take (toU16 sz), by rw [List.length_take, List.length_drop]; omega, rfl, ?_⟩
      have hl : ((rest.drop 4).take (toU16 sz)).length = toU16 sz := by rw [List.length_take, List.length_drop]; omega
      rw [Tls13.extension, Tls13.vec2, hl, ← ht, ← hsz, ← List.drop_drop]
      simp only [List.append_assoc]
      rw [List.take_append_drop, ← List.append_assoc]
      exact hrest
    have lift : ∀ (acc' : List ClientExtension), fromClientHelloLoop fuel (rest.drop (4 + toU16 sz)) acc' = .ok exts → .keyShare k ∈ acc' ∨
      ∃ (front : List (Nat × Bytes)) (body back : Bytes), rest = (front.map Tls13.extension).flatten ++ Tls13.extension (51, body) ++ back ∧
        (∀ e ∈ front, e.1 < 65536 ∧ e.2.length < 65536) ∧ body.length < 65536 ∧ KeyShare.parse body false = .ok k := by
      intro acc' h5
      rcases ih _ _ _ h5 he with h7 | ⟨front, body, back, p1, p2, p3, p4⟩
      · exact .inl h7
      by_cases hw : 4 + toU16 sz ≤ rest.length
      · obtain ⟨b, hb, _, hr⟩ := whole hw
        refine .inr ⟨(toU16 t, b) :: front, body, back, ?_, ?_, p3, p4⟩
        · conv_lhs => rw [hr, p1]
          simp only [List.map_cons, List.flatten_cons, List.append_assoc]
        · intro e hm
          rcases List.mem_cons.1 hm with rfl | hm
          · exact ⟨hlt _ (by rw [l1]), by simp only []; rw [hb]; exact hlt _ (by rw [l2])⟩
          · exact p2 e hm
      · rw [List.drop_eq_nil_of_le (by omega)] at p1
        have := congrArg List.length p1
        simp only [List.length_nil, List.length_append, Tls13.extension, Tls13.vec2, beBytes_length] at this
        omega
    have other : ∀ (e : ClientExtension), (∀ k, e ≠ .keyShare k) → fromClientHelloLoop fuel (rest.drop (4 + toU16 sz)) (acc ++ [e]) = .ok exts → .keyShare k ∈ acc ∨
      ∃ (front : List (Nat × Bytes)) (body back : Bytes), rest = (front.map Tls13.extension).flatten ++ Tls13.extension (51, body) ++ back ∧
        (∀ e ∈ front, e.1 < 65536 ∧ e.2.length < 65536) ∧ body.length < 65536 ∧ KeyShare.parse body false = .ok k := by
      intro e hne h5
      rcases lift _ h5 with h7 | h7
      · rcases List.mem_append.1 h7 with h8 | h8
        · exact .inl h8
        · exact absurd (List.mem_singleton.1 h8).symm (hne k)
      · exact .inr h7
    unfold ExtensionType.new at h
    split_ifs at h with c1 c2 c3
    · obtain ⟨b, _, h⟩ := Res.bind_eq_ok.1 h
      obtain ⟨e, _, h⟩ := Res.bind_eq_ok.1 h
      exact other _ (by intro k hk; cases hk) h
    · obtain ⟨e, _, h⟩ := Res.bind_eq_ok.1 h
      exact other _ (by intro k hk; cases hk) h
    · obtain ⟨b, h3, h⟩ := Res.bind_eq_ok.1 h
      obtain ⟨k', h4, h⟩ := Res.bind_eq_ok.1 h
      rcases lift _ h with h7 | h7
      · rcases List.mem_append.1 h7 with h8 | h8
        · exact .inl h8
        · have hk : k = k' := by simpa using h8
          subst hk
          obtain ⟨q1, q2, q3, q4⟩ := slice_split h3
          obtain ⟨b', hb, hb', hr⟩ := whole q3
          have hbb : b = b' := by
            obtain ⟨d3, l3⟩ := drop_slice h3
            rw [hb', d3, List.take_left' (by rw [l3]; omega)]
          subst hbb
          refine .inr ⟨[], b, rest.drop (4 + toU16 sz), ?_, by simp, by rw [hb]; exact hlt _ (by rw [l2]), h4⟩
          rw [← c3]
          exact hr
      · exact .inr h7
    · exact lift _ h

theorem u16s_cons (a : Nat) (l : List Nat) : Tls13.u16s (a :: l) = beBytes 2 a ++ Tls13.u16s l := by
  simp [Tls13.u16s]

theorem u16s_length (l : List Nat) : (Tls13.u16s l).length = 2 * l.length := by
  induction l with
  | nil => rfl
  | cons a l ih => rw [u16s_cons, List.length_append, ih, beBytes_length, List.length_cons]; omega

/-- What the suites that are read come from. -/
theorem suites_from (buf : Bytes) : ∀ (n i : Nat) (acc out : List CipherSuite), ClientHello.suitesLoop buf n i acc = .ok out →
    ∃ l : List Nat, l.length = n ∧ (∀ c ∈ l, c < 65536) ∧ buf.drop i = Tls13.u16s l ++ buf.drop (i + 2 * n) ∧
      ∀ cs ∈ out, cs ∈ acc ∨ cs.asU16 ∈ l := by
  intro n
  induction n with
  | zero =>
    intro i acc out h
    obtain rfl := Res.ok.inj h
    exact ⟨[], rfl, by simp, rfl, fun cs hc => .inl hc⟩
  | succ n ih =>
    intro i acc out h
    unfold ClientHello.suitesLoop at h
    obtain ⟨a, h1, h⟩ := Res.bind_eq_ok.1 h
    obtain ⟨b, h2, h⟩ := Res.bind_eq_ok.1 h
    obtain ⟨l, l1, l2, l3, l4⟩ := ih _ _ _ h
    refine ⟨((a.toNat <<< 8) ||| b.toNat) :: l, by rw [List.length_cons, l1], ?_, ?_, ?_⟩
    · intro c hc
      rcases List.mem_cons.1 hc with rfl | hc
      · have ha := a.isLt
        have hb := b.isLt
        rw [WireProof.shl_or _ _ b.isLt]
        omega
      · exact l2 c hc
    · rw [drop_pair h1 h2, l3, u16s_cons, List.append_assoc, show i + 2 + 2 * n = i + 2 * (n + 1) by omega]
    · intro cs hc
      rcases l4 cs hc with h5 | h5
      · generalize hv : (a.toNat <<< 8) ||| b.toNat = v at h5 ⊢
        unfold CipherSuite.new at h5
        split_ifs at h5 with g1 g2 g3 g4
        all_goals first
          | exact .inl h5
          | (rcases List.mem_append.1 h5 with h6 | h6
             · exact .inl h6
             · rw [List.mem_singleton.1 h6]
               refine .inr (List.mem_cons.2 (.inl ?_))
               rw [‹v = _›]
               rfl)
      · exact .inr (List.mem_cons_of_mem _ h5)

theorem hello_offers {body : Bytes} {hello : ClientHello} {share : KeyShareEntry} {cs : CipherSuite} {c : Cipher} (h : ClientHello.fromRaw body = .ok hello)
    (hk : hello.getPublicKeyShare = some share) (hg : share.group = .x25519) (hm : cs ∈ hello.cipherSuites) (hc : cs.getCipher = .ok c) (after : Bytes) :
    Tls13.Offers13 (Tls13.handshakeMessage 1#8 body ++ after) cs.asU16 share.opaq := by
  unfold ClientHello.fromRaw at h
  split_ifs at h
  obtain ⟨v0, e0, h⟩ := Res.bind_eq_ok.1 h
  obtain ⟨v1, e1, h⟩ := Res.bind_eq_ok.1 h
  split_ifs at h with hv
  obtain ⟨random, e2, h⟩ := Res.bind_eq_ok.1 h
  obtain ⟨sl, e3, h⟩ := Res.bind_eq_ok.1 h
  obtain ⟨⟨consumed, sid⟩, e4, h⟩ := Res.bind_eq_ok.1 h
  simp only [] at h
  obtain ⟨c0, e5, h⟩ := Res.bind_eq_ok.1 h
  obtain ⟨c1, e6, h⟩ := Res.bind_eq_ok.1 h
  split_ifs at h with hlen
  obtain ⟨suites, e7, h⟩ := Res.bind_eq_ok.1 h
  obtain ⟨x0, e8, h⟩ := Res.bind_eq_ok.1 h
  obtain ⟨x1, e9, h⟩ := Res.bind_eq_ok.1 h
  obtain ⟨eb, e10, h⟩ := Res.bind_eq_ok.1 h
  obtain ⟨exts, e11, h⟩ := Res.bind_eq_ok.1 h
  obtain rfl := Res.ok.inj h
  have hv := not_not.1 hv
  have hlen := (not_or.1 hlen).1
  have d0 := drop_pair e0 e1
  obtain ⟨d2, l2⟩ := drop_slice e2
  have d3 := drop_one e3
  have d5 := drop_pair e5 e6
  obtain ⟨d10, l10⟩ := drop_slice e10
  have d8 := drop_pair e8 e9
  generalize hS : (c0.toNat <<< 8) ||| c1.toNat = S at *
  generalize hX : (x0.toNat <<< 8) ||| x1.toNat = X at *
  obtain ⟨l, ll, lr, ld, lm⟩ := suites_from body _ _ _ _ e7
  have hsid : ∃ sidB, body.drop 34 = sidB ++ body.drop consumed ∧ (sidB = [0#8] ∨ sidB.length = 33) := by
    split_ifs at e4 with hz
    · obtain ⟨s, e4', e4⟩ := Res.bind_eq_ok.1 e4
      obtain ⟨rfl, -⟩ := Prod.mk.inj (Res.ok.inj e4)
      obtain ⟨d4, l4⟩ := drop_slice e4'
      exact ⟨[sl] ++ s, by rw [d3, d4, List.append_assoc], .inr (by simp [l4])⟩
    · obtain ⟨rfl, -⟩ := Prod.mk.inj (Res.ok.inj e4)
      exact ⟨[sl], d3, .inl (by rw [not_not.1 hz])⟩
  obtain ⟨sidB, d4, hsid⟩ := hsid
  have hS2 : consumed + 2 + 2 * (S / 2) = consumed + 2 + S := by omega
  rw [hS2] at ld
  have hcomp : ∃ comp, body.drop (consumed + 2 + S) = comp ++ body.drop (consumed + 2 + S + 2) ∧ comp.length = 2 := by
    have hlt : consumed + 2 + S + 2 < body.length := by
      by_contra hc
      unfold idx at e8
      rw [List.getElem?_eq_none (by omega)] at e8
      cases e8
    refine ⟨(body.drop (consumed + 2 + S)).take 2, ?_, by rw [List.length_take, List.length_drop]; omega⟩
    rw [← List.drop_drop (i := 2) (j := consumed + 2 + S), List.take_append_drop]
  obtain ⟨comp, d6, l6⟩ := hcomp
  unfold ClientHello.getPublicKeyShare at hk
  rw [List.findSome?_eq_some_iff] at hk
  obtain ⟨l1, e, l3, hsplit, he, _⟩ := hk
  have hsplit : exts = l1 ++ e :: l3 := hsplit
  have hek : ∃ k, e = .keyShare k ∧ k.entries.head? = some share := by
    cases e with
    | keyShare k => exact ⟨k, rfl, he⟩
    | _ => cases he
  obtain ⟨k, rfl, hhead⟩ := hek
  rcases shares_from k _ _ _ _ e11 (by rw [hsplit]; simp) with h7 | ⟨front, kb, back, p1, p2, p3, p4⟩
  · cases h7
  obtain ⟨total, shares, t1, rfl⟩ := share_from p4 hhead hg
  refine ⟨body, random, sidB, comp, eb, body.drop (consumed + 2 + S + 2 + 2 + X), after, total, shares, back, l, front, rfl, ?_, by rw [l2], hsid, l6, lr, ?_, ?_, p1, t1, p2, p3⟩
  · have h33 : beBytes 2 0x0303 = [3#8, 3#8] := by decide
    have hl : eb.length = X := by rw [l10]; omega
    have hsl : (Tls13.u16s l).length = S := by rw [u16s_length, ll]; omega
    conv_lhs => rw [← List.drop_zero (l := body), d0, hv, d2, d4, d5, ld, d6, d8, d10]
    rw [Tls13.vec2, Tls13.vec2, hl, hsl, h33]
    simp only [List.append_assoc]
  · rcases lm cs hm with h8 | h8
    · cases h8
    · exact h8
  · cases cs <;> first | (simp [CipherSuite.asU16]; done) | cases hc

/-- The handshake only goes on with such a ClientHello. -/
theorem answered_offers {env : ServerEnv} {reads : List Bytes} {x : Params} {ch sh ccs : Bytes} {rng : Rng} (h : HelloAnsweredBy env reads x ch sh ccs rng) :
    ∃ key pk, Tls13.Offers13 ch x.cs.asU16 key ∧ sharedSecret pk key = .ok x.ecdhe ∧
      ∃ hello answer, ServerHello.fromClientHello hello (.urandom reads) env.config.serverName = .ok (answer, pk, rng) := by
  obtain ⟨hs, hello, answer, pk, share, body, e1, e2, e3, e4, _, _, e5, e6, e7, _, e8, _, e9, _⟩ := h
  obtain ⟨i1, i2, _, _⟩ := FlowProof.handshake_inv e1
  refine ⟨share.opaq, pk, ?_, e7, hello, answer, e4⟩
  rw [e2] at i1
  rw [i2, i1]
  exact hello_offers e3 e5 e6 (by rw [e8]; exact (C38_choice _ _ _ _ _ _ e4).1) e9 _

theorem be_inj {n a b : Nat} (ha : a < 256 ^ n) (hb : b < 256 ^ n) (h : beBytes n a = beBytes n b) : a = b := by
  have := congrArg beNat h
  rwa [beNat_beBytes, beNat_beBytes, Nat.mod_eq_of_lt ha, Nat.mod_eq_of_lt hb] at this

theorem record_unique {t : Byte} {m m' w w' a a' : Bytes} (h : Tls13.IsRecord t m w) (h' : Tls13.IsRecord t m' w') (he : w ++ a = w' ++ a') : m = m' := by
  obtain ⟨v1, v2, hl, rfl⟩ := h
  obtain ⟨v1', v2', hl', rfl⟩ := h'
  simp only [List.append_assoc] at he
  obtain ⟨_, he⟩ := List.append_inj he rfl
  obtain ⟨hb, he⟩ := List.append_inj he (by rw [beBytes_length, beBytes_length])
  have hlen : m.length = m'.length := be_inj (by norm_num at hl ⊢; omega) (by norm_num at hl' ⊢; omega) hb
  exact (List.append_inj he hlen).1

end OfferProof

/-- C111 without the extensions that are not looked at: the server only hands out a stream after a ClientHello for the legacy version 0x0303 which offers one of
the three suites and a key share for X25519. (Missing: that supported_versions offers TLS 1.3 (see C39), that supported_groups and
signature_algorithms are there, that no extension occurs twice, and that there is nothing else in the message.) -/
theorem C111_offers_partial : C111_for fun message => ∃ suite key, Tls13.Offers13 message suite key := by
  intro env reads sock s h message record more hc hi hr hw
  obtain ⟨r, context, auth, fin, tail, hA⟩ := C42_server_accepts env reads sock s h hc hw
  obtain ⟨recv, hrecv, wire, rfl, _⟩ := hA.received
  obtain ⟨rng, hx⟩ := hA.answered
  obtain ⟨key, pk, hk, _⟩ := OfferProof.answered_offers hx
  have : message = r.ch := OfferProof.record_unique hr hA.hello (by rw [← hi, hrecv, List.append_assoc, List.append_assoc])
  rw [this]
  exact ⟨_, key, hk⟩

/-- The same of every completed handshake: the suite in use is one the ClientHello offers, and the shared secret is that of the private key whose public key
is the last share of the ServerHello with the client's X25519 share in it. -/
theorem C111_every_run_partial (env : ServerEnv) (reads : List Bytes) (sock : Socket) (s : TlsStream) (h : ServerHandshake)
    (hc : env.config.cert.raw.length < 2 ^ 24) (hw : ServerConnection.accept env reads sock = (.ok s, h)) :
    ∃ (r : Exchange) (context : Option Bytes) (auth : List Bytes) (fin tail key : Bytes) (pk : PrivateKey) (random session : Bytes) (shares : List Bytes),
      Accepted env reads sock s r context auth fin tail ∧
      Tls13.Offers13 r.ch r.x.cs.asU16 key ∧ sharedSecret pk key = .ok r.x.ecdhe ∧
      r.sh = Tls13.handshakeMessage 2#8 (Tls13.ServerHelloMsg.mk random session r.x.cs.asU16
        (shares.map (fun s => .keyShare (29, s)) ++ [.supportedVersions 0x0304])).bytes ∧ shares.getLast? = some (publicShare pk.secret) := by
  obtain ⟨r, context, auth, fin, tail, hA⟩ := C42_server_accepts env reads sock s h hc hw
  obtain ⟨rng, hs, hello, answer, pk, share, body, g1, g2, g3, g4, g5, g6, g7, g8, g9, g10, g11, g12, g13, _⟩ := hA.answered
  obtain ⟨i1, i2, k3, _⟩ := FlowProof.handshake_inv g1
  obtain ⟨wire, shares, l1, _, l3, _, _, l6, _⟩ := C36_reachable hs.fraqment hello _ _ answer pk rng (by have := hA.size.2.2; omega) g3 g4
  have hb : body = wire := by rw [l1] at g5; exact (Res.ok.inj g5).symm
  subst hb
  refine ⟨r, context, auth, fin, tail, share.opaq, pk, answer.random, hello.legacySessionIdEcho.getD [], shares.map List.reverse, hA, ?_, g9, ?_, ?_⟩
  · rw [g2] at i1
    rw [i2, i1]
    exact OfferProof.hello_offers g3 g7 g8 (by rw [g11]; exact (C38_choice _ _ _ _ _ _ g4).1) g13 _
  · rw [g6, l3, g11, List.map_map]
    rfl
  · rw [List.getLast?_map, l6]
    simp

namespace OfferProof

theorem exts_inj : ∀ (l l' : List Tls13.ClientExt), (∀ e ∈ l, e.typ < 65536 ∧ e.body.length < 65536) → (∀ e ∈ l', e.typ < 65536 ∧ e.body.length < 65536) →
    (l.map Tls13.ClientExt.bytes).flatten = (l'.map Tls13.ClientExt.bytes).flatten → l.map Tls13.ClientExt.typ = l'.map Tls13.ClientExt.typ
  | [], [], _, _, _ => rfl
  | [], e :: l', _, _, h => by
    have := congrArg List.length h
    simp only [List.map_nil, List.flatten_nil, List.length_nil, List.map_cons, List.flatten_cons, List.length_append, Tls13.ClientExt.bytes, beBytes_length] at this
    omega
  | e :: l, [], _, _, h => by
    have := congrArg List.length h
    simp only [List.map_nil, List.flatten_nil, List.length_nil, List.map_cons, List.flatten_cons, List.length_append, Tls13.ClientExt.bytes, beBytes_length] at this
    omega
  | e :: l, e' :: l', h1, h2, h => by
    obtain ⟨a1, a2⟩ := h1 e (by simp)
    obtain ⟨b1, b2⟩ := h2 e' (by simp)
    simp only [List.map_cons, List.flatten_cons, Tls13.ClientExt.bytes, Tls13.vec2, List.append_assoc] at h
    obtain ⟨ht, h⟩ := List.append_inj h (by rw [beBytes_length, beBytes_length])
    obtain ⟨hb, h⟩ := List.append_inj h (by rw [beBytes_length, beBytes_length])
    have ht : e.typ = e'.typ := be_inj (by simpa using a1) (by simpa using b1) ht
    have hb : e.body.length = e'.body.length := be_inj (by simpa using a2) (by simpa using b2) hb
    obtain ⟨_, h⟩ := List.append_inj h hb
    rw [List.map_cons, List.map_cons, ht, exts_inj l l' (fun x hx => h1 x (List.mem_cons_of_mem _ hx)) (fun x hx => h2 x (List.mem_cons_of_mem _ hx)) h]

theorem small {m : Tls13.ClientHelloMsg} (hm : m.Valid) : ∀ e ∈ m.exts, e.typ < 65536 ∧ e.body.length < 65536 := by
  intro e he
  refine ⟨?_, ?_⟩
  · have := hm.exts e he
    cases e with
    | other t b => exact this.1
    | _ => simp [Tls13.ClientExt.typ]
  · have h1 : e.bytes.length ≤ (m.exts.map Tls13.ClientExt.bytes).flatten.length := by
      rw [List.length_flatten]
      exact List.le_sum_of_mem (List.mem_map.2 ⟨_, List.mem_map.2 ⟨e, he, rfl⟩, rfl⟩)
    have h2 := hm.len.2
    simp only [Tls13.ClientExt.bytes, Tls13.vec2, List.length_append, beBytes_length] at h1
    omega

theorem types_inj {m m' : Tls13.ClientHelloMsg} (hm : m.Valid) (hm' : m'.Valid)
    (h : Tls13.handshakeMessage 1#8 m.bytes = Tls13.handshakeMessage 1#8 m'.bytes) : m.exts.map Tls13.ClientExt.typ = m'.exts.map Tls13.ClientExt.typ := by
  simp only [Tls13.handshakeMessage, List.append_assoc] at h
  obtain ⟨_, h⟩ := List.append_inj h rfl
  obtain ⟨_, h⟩ := List.append_inj h (by rw [beBytes_length, beBytes_length])
  simp only [Tls13.ClientHelloMsg.bytes, Tls13.vec2, List.append_assoc] at h
  obtain ⟨_, h⟩ := List.append_inj h rfl
  obtain ⟨_, h⟩ := List.append_inj h (by rw [hm.random, hm'.random])
  obtain ⟨hl, h⟩ := List.append_inj h (by rw [beBytes_length, beBytes_length])
  have hl : m.sessionId.length = m'.sessionId.length := by
    have a := hm.sessionId
    have b := hm'.sessionId
    exact be_inj (by norm_num; omega) (by norm_num; omega) hl
  obtain ⟨_, h⟩ := List.append_inj h hl
  obtain ⟨hl, h⟩ := List.append_inj h (by rw [beBytes_length, beBytes_length])
  have hl : (Tls13.u16s m.suites).length = (Tls13.u16s m'.suites).length := by
    have a := hm.suites.2.1
    have b := hm'.suites.2.1
    exact be_inj (by rw [u16s_length]; norm_num; omega) (by rw [u16s_length]; norm_num; omega) hl
  obtain ⟨_, h⟩ := List.append_inj h hl
  obtain ⟨_, h⟩ := List.append_inj h rfl
  obtain ⟨_, h⟩ := List.append_inj h (by rw [beBytes_length, beBytes_length])
  exact exts_inj _ _ (small hm) (small hm') h

end OfferProof

/-- The hypotheses of C111 are met: the example server completes the handshake with a client that sends an extension the server does not know, a key
share and supported_versions, and no other extension. -/
theorem C111_example : ∃ (record : Bytes) (later : List Bytes) (c : Tls13.Client) (env : ServerEnv) (reads : List Bytes) (s : TlsStream) (h : ServerHandshake),
    env.config.cert.raw.length < 2 ^ 24 ∧ c.Follows ∧ c.helloMsg.exts.map Tls13.ClientExt.typ = [0x2a2a, 51, 43] ∧ Tls13.IsRecord 22#8 c.hello record ∧
    ServerConnection.accept env reads ⟨record :: later, [], []⟩ = (.ok s, h) := by
  obtain ⟨x, ks, r, s, r', s', contents, records, str, h, hf, _, hw, _⟩ := C81_example false
  refine ⟨_, records, rfcClient [] r' s', _, _, str, h, ?_, hf, rfl, ?_, hw⟩
  · exact (by decide +kernel : (exampleServer none none).config.cert.raw.length < 2 ^ 24)
  · exact ⟨3#8, 3#8, by have := (client_lengths (.inl rfl) r' s').2.2; omega, rfl⟩

/-- C111 is false as stated: the server completes the handshake with a client that sends neither supported_groups nor signature_algorithms, where RFC 8446
section 9.2 requires it to abort with missing_extension. -/
theorem C111_false : ¬ C111_statement := by
  intro hC
  obtain ⟨record, later, c, env, reads, str, h, hcert, hf, htypes, hr, hw⟩ := C111_example
  obtain ⟨m, hm, he, _, _, _, _, _, schemes, hs, _⟩ := hC env reads _ str h c.hello record later.flatten hcert rfl hr hw
  have ht := OfferProof.types_inj hf.hello hm he
  rw [htypes] at ht
  have : 13 ∈ m.exts.map Tls13.ClientExt.typ := List.mem_map.2 ⟨_, hs, rfl⟩
  rw [← ht] at this
  exact absurd this (by decide)

/-- There are messages that RFC 8446 permits. -/
example : ∃ message, Tls13.PermittedOffer message := by
  refine ⟨_, ⟨zeros 32, [], [0x1302], [.keyShare [(29, zeros 32)], .supportedVersions [0x0304], .other 10 (Tls13.vec2 (Tls13.u16s [29])),
    .other 13 (Tls13.vec2 (Tls13.u16s [0x0403]))]⟩, ⟨rfl, by decide, by decide, ?_, by decide +kernel⟩, rfl, by decide, ⟨0x1302, by decide, by decide⟩,
    ⟨[0x0304], by simp, by decide⟩, ⟨[(29, zeros 32)], zeros 32, by simp, by simp, rfl⟩, ⟨[29], by simp, by decide⟩, ⟨[0x0403], by simp, by decide⟩⟩
  intro e he
  simp only [List.mem_cons, List.not_mem_nil, or_false] at he
  rcases he with rfl | rfl | rfl | rfl <;> simp [Tls13.ClientExt.Valid, zeros]

end ATLS
