import Verif.Spec.Answer
import Verif.Props.RfcServerExample
/-
C87: which ServerHello the client accepts.
-/
namespace ATLS
open ATLS.Model ATLS.Spec FlowProof RfcProof

/-- C87 for the condition `A` on the session id of the ClientHello and the message of the server: when `connect` hands out a stream, and the first read
begins with a whole handshake record, then what this record contains satisfies `A`. -/
def C87_for (A : Bytes → Bytes → Prop) : Prop :=
  ∀ (env : ClientEnv) (reads : List Bytes) (sock : Socket) (s : TlsStream) (h : Option ClientHandshake) (random sid share : Bytes) (message record more : Bytes)
    (later : List Bytes) (n : Int),
    (∀ a, env.config.serverName = some a → a.length < 2 ^ 24) →
    Offered env reads n (Tls13.handshakeMessage 1#8 (Tls13.clientOffer random sid share env.config.serverName).bytes) →
    sock.incoming = (record ++ more) :: later → (record ++ more).length ≤ 2048 → Tls13.IsRecord 22#8 message record →
    ClientConnection.connect env reads sock = (.ok s, h) → A sid message

/-- C87, in full. It is false: `C87_false`. -/
def C87_statement : Prop := C87_for Tls13.Permitted

namespace AnswerProof
open ServerProof

theorem u16_bytes (a b : Byte) : [a, b] = beBytes 2 ((a.toNat <<< 8) ||| b.toNat) := by
  have ha := a.isLt
  have hb := b.isLt
  rw [WireProof.shl_or _ _ b.isLt, RecProof.beBytes2]
  congr 1
  · apply BitVec.eq_of_toNat_eq; rw [BitVec.toNat_ofNat]; omega
  · congr 1
    apply BitVec.eq_of_toNat_eq; rw [BitVec.toNat_ofNat]; omega

theorem drop_one {ε : Type} {l : Bytes} {i : Nat} {b : Byte} (h : (idx l i : Res ε Byte) = .ok b) : l.drop i = [b] ++ l.drop (i + 1) := by
  unfold idx at h
  cases hb : l[i]? with
  | none => rw [hb] at h; cases h
  | some v =>
    rw [hb] at h
    obtain rfl := Res.ok.inj h
    obtain ⟨hi, rfl⟩ := List.getElem?_eq_some_iff.1 hb
    exact List.drop_eq_getElem_cons hi

theorem drop_pair {ε : Type} {l : Bytes} {i : Nat} {a b : Byte} (h1 : (idx l i : Res ε Byte) = .ok a) (h2 : (idx l (i + 1) : Res ε Byte) = .ok b) :
    l.drop i = beBytes 2 ((a.toNat <<< 8) ||| b.toNat) ++ l.drop (i + 2) := by
  rw [drop_one h1, drop_one h2, ← u16_bytes]; rfl

theorem drop_slice {ε : Type} {l s : Bytes} {a b : Nat} (h : (slice l a b : Res ε Bytes) = .ok s) : l.drop a = s ++ l.drop b ∧ s.length = b - a := by
  obtain ⟨h1, h2, h3, h4⟩ := slice_split h
  refine ⟨?_, h4⟩
  conv_lhs => rw [h1]
  rw [List.drop_left' (by rw [List.length_take]; omega)]

theorem infix_drop {a l : Bytes} (n : Nat) (h : a <:+: l.drop n) : a <:+: l := h.trans (List.drop_suffix n l).isInfix

theorem group_x25519 {v : Nat} (h : (Res.okOr .illegalParameter (NamedGroup.new v) : Res TlsError NamedGroup) = .ok .x25519) : v = 29 := by
  unfold NamedGroup.new at h
  split_ifs at h <;> first | assumption | cases h

theorem entry_from {buf : Bytes} {k : KeyShare} (h : KeyShare.parse buf true = .ok k) {y : KeyShareEntry} (hy : y ∈ k.entries) (hg : y.group = .x25519) :
    Tls13.share (29, y.opaq) <+: buf := by
  unfold KeyShare.parse at h
  obtain ⟨rest, h1, h⟩ := Res.bind_eq_ok.1 h
  obtain ⟨es, h2, h⟩ := Res.bind_eq_ok.1 h
  obtain rfl := Res.ok.inj h
  have hr : rest = buf := by
    simp only [if_true, sliceFrom] at h1
    split_ifs at h1
    · exact (Res.ok.inj h1).symm
  subst hr
  unfold KeyShare.parseLoop at h2
  obtain ⟨⟨used, e⟩, h3, h2⟩ := Res.bind_eq_ok.1 h2
  simp only [] at h2
  have he : y = e := by
    split_ifs at h2
    · obtain rfl := Res.ok.inj h2; cases hy
    · obtain rfl := Res.ok.inj h2
      simpa using hy
    · omega
  subst he
  unfold KeyShareEntry.parse at h3
  obtain ⟨g, g1, h3⟩ := Res.bind_eq_ok.1 h3
  obtain ⟨r2, g2, h3⟩ := Res.bind_eq_ok.1 h3
  simp only [] at h3
  split_ifs at h3
  obtain ⟨o, g3, h3⟩ := Res.bind_eq_ok.1 h3
  obtain ⟨-, rfl⟩ := Prod.mk.inj (Res.ok.inj h3)
  obtain ⟨d3, l3⟩ := drop_slice g3
  obtain ⟨_, _, hlen, _⟩ := slice_split g3
  have hr2 : r2 = rest.drop 2 := by
    simp only [sliceFrom] at g2
    split_ifs at g2
    exact (Res.ok.inj g2).symm
  subst hr2
  have hgroup : toU16 rest = 29 := by
    have hg : g = .x25519 := hg
    subst hg
    exact group_x25519 g1
  rcases rest with _ | ⟨a, _ | ⟨b, _ | ⟨c, _ | ⟨d, r⟩⟩⟩⟩
  iterate 4 (simp only [List.length_cons, List.length_nil] at hlen; omega)
  rw [show List.drop 2 (a :: b :: c :: d :: r) = c :: d :: r from rfl, WireProof.toU16_cons] at d3 l3
  rw [WireProof.toU16_cons] at hgroup
  rw [show List.drop 4 (a :: b :: c :: d :: r) = r from rfl] at d3
  have h1 := u16_bytes a b
  have h2 := u16_bytes c d
  rw [WireProof.shl_or _ _ b.isLt, hgroup] at h1
  rw [WireProof.shl_or _ _ d.isLt] at h2
  refine ⟨List.drop (c.toNat * 256 + d.toNat + 4) (a :: b :: c :: d :: r), ?_⟩
  have hl : o.length = c.toNat * 256 + d.toNat := by omega
  simp only [Tls13.share, Tls13.vec2]
  rw [← h1, hl, ← h2]
  simp only [List.append_assoc, List.cons_append, List.nil_append]
  rw [← d3]

/-- What the extensions that are read come from. -/
theorem extensions_from : ∀ (fuel : Nat) (rest : Bytes) (acc exts : List ServerExtension), fromServerHelloLoop fuel rest acc = .ok exts →
    ∀ e ∈ exts, e ∈ acc ∨
      (∃ b size v, e = .supportedVersions b ∧ size.length = 2 ∧ (b = true → v = beBytes 2 0x0304) ∧ beBytes 2 43 ++ size ++ v <:+: rest) ∨
      (∃ k size, e = .keyShare k ∧ size.length = 2 ∧ ∀ y ∈ k.entries, y.group = .x25519 → beBytes 2 51 ++ size ++ Tls13.share (29, y.opaq) <:+: rest) ∨
      ∃ l, e = .signatureAlgorithms l := by
  intro fuel
  induction fuel with
  | zero =>
    intro rest acc exts h e he
    unfold fromServerHelloLoop at h
    split_ifs at h
    obtain rfl := Res.ok.inj h
    exact .inl he
  | succ fuel ih =>
    intro rest acc exts h e he
    unfold fromServerHelloLoop at h
    split_ifs at h
    · obtain rfl := Res.ok.inj h
      exact .inl he
    obtain ⟨t, h1, h⟩ := Res.bind_eq_ok.1 h
    obtain ⟨sz, h2, h⟩ := Res.bind_eq_ok.1 h
    simp only [] at h
    obtain ⟨d1, _⟩ := drop_slice h1
    obtain ⟨d2, l2⟩ := drop_slice h2
    have ht := toU16_two (i := 0) h1
    have hrest : rest = t ++ sz ++ rest.drop 4 := by
      rw [List.append_assoc, ← d2, ← d1, List.drop_zero]
    have lift : ∀ (n : Nat) (acc' : List ServerExtension), fromServerHelloLoop fuel (rest.drop n) acc' = .ok exts → (e ∈ acc' → e ∈ acc ∨
      (∃ b size v, e = .supportedVersions b ∧ size.length = 2 ∧ (b = true → v = beBytes 2 0x0304) ∧ beBytes 2 43 ++ size ++ v <:+: rest) ∨
      (∃ k size, e = .keyShare k ∧ size.length = 2 ∧ ∀ y ∈ k.entries, y.group = .x25519 → beBytes 2 51 ++ size ++ Tls13.share (29, y.opaq) <:+: rest) ∨
      ∃ l, e = .signatureAlgorithms l) → e ∈ acc ∨
      (∃ b size v, e = .supportedVersions b ∧ size.length = 2 ∧ (b = true → v = beBytes 2 0x0304) ∧ beBytes 2 43 ++ size ++ v <:+: rest) ∨
      (∃ k size, e = .keyShare k ∧ size.length = 2 ∧ ∀ y ∈ k.entries, y.group = .x25519 → beBytes 2 51 ++ size ++ Tls13.share (29, y.opaq) <:+: rest) ∨
      ∃ l, e = .signatureAlgorithms l := by
      intro n acc' h5 h6
      rcases ih _ _ _ h5 e he with h7 | ⟨b, size, v, p1, p2, p3, p4⟩ | ⟨k, size, p1, p2, p3⟩ | h7
      · exact h6 h7
      · exact .inr (.inl ⟨b, size, v, p1, p2, p3, infix_drop n p4⟩)
      · exact .inr (.inr (.inl ⟨k, size, p1, p2, fun y hy hg => infix_drop n (p3 y hy hg)⟩))
      · exact .inr (.inr (.inr h7))
    unfold ExtensionType.new at h
    split_ifs at h with c1 c2 c3
    · exact lift _ _ h .inl
    · simp only [] at h
      obtain ⟨v, h3, h⟩ := Res.bind_eq_ok.1 h
      refine lift _ _ h fun hm => ?_
      rcases List.mem_append.1 hm with hm | hm
      · exact .inl hm
      refine .inr (.inl ?_)
      unfold SupportedVersions.clientParse at h3
      obtain ⟨w, h4, h3⟩ := Res.bind_eq_ok.1 h3
      obtain ⟨d3, l3⟩ := drop_slice h4
      have hw := toU16_two (i := 0) h4
      rw [List.drop_zero] at d3
      refine ⟨v, sz, w, by simpa using hm, l2, ?_, ?_⟩
      · intro hv
        rw [hv] at h3
        have : toU16 w = 0x0304 := by simpa using h3
        rw [hw, this]
      · rw [← c2, ← ht, hrest]
        refine ⟨[], (rest.drop 4).drop 2, ?_⟩
        rw [List.nil_append, List.append_assoc, ← d3]
    · simp only [] at h
      obtain ⟨b, h3, h⟩ := Res.bind_eq_ok.1 h
      obtain ⟨k, h4, h⟩ := Res.bind_eq_ok.1 h
      refine lift _ _ h fun hm => ?_
      rcases List.mem_append.1 hm with hm | hm
      · exact .inl hm
      refine .inr (.inr (.inl ⟨k, sz, by simpa using hm, l2, fun y hy hg => ?_⟩))
      obtain ⟨q, hq⟩ := entry_from h4 hy hg
      obtain ⟨d3, _⟩ := drop_slice h3
      rw [← c3, ← ht, hrest, d3, ← hq]
      exact ⟨[], q ++ rest.drop (4 + toU16 sz), by simp⟩
    · exact lift _ _ h .inl

theorem hello_selects {body : Bytes} {hello : ServerHello} {share : KeyShareEntry} {c : Cipher} (h : ServerHello.fromRaw body = .ok hello)
    (hk : hello.getPublicKeyShare = some share) (hg : share.group = .x25519) (hc : hello.cipherSuite.getCipher = .ok c) (after : Bytes) :
    Tls13.Selects13 (Tls13.handshakeMessage 2#8 body ++ after) share.opaq := by
  unfold ServerHello.fromRaw at h
  split_ifs at h
  obtain ⟨v0, e0, h⟩ := Res.bind_eq_ok.1 h
  obtain ⟨v1, e1, h⟩ := Res.bind_eq_ok.1 h
  split_ifs at h with hv
  obtain ⟨random, e2, h⟩ := Res.bind_eq_ok.1 h
  obtain ⟨sl, e3, h⟩ := Res.bind_eq_ok.1 h
  obtain ⟨⟨consumed, sid⟩, e4, h⟩ := Res.bind_eq_ok.1 h
  simp only [] at h
  obtain ⟨c0, e5, h⟩ := Res.bind_eq_ok.1 h
  obtain ⟨c1, e6, h⟩ := Res.bind_eq_ok.1 h
  obtain ⟨cs, e7, h⟩ := Res.bind_eq_ok.1 h
  obtain ⟨x0, e8, h⟩ := Res.bind_eq_ok.1 h
  obtain ⟨x1, e9, h⟩ := Res.bind_eq_ok.1 h
  obtain ⟨eb, e10, h⟩ := Res.bind_eq_ok.1 h
  obtain ⟨exts, e11, h⟩ := Res.bind_eq_ok.1 h
  split_ifs at h with htls
  obtain rfl := Res.ok.inj h
  have hv := not_not.1 hv
  have d0 := drop_pair e0 e1
  obtain ⟨d2, l2⟩ := drop_slice e2
  have d3 := drop_one e3
  have d5 := drop_pair e5 e6
  obtain ⟨d10, l10⟩ := drop_slice e10
  have d8 := drop_pair e8 e9
  have hsid : ∃ sidB, body.drop 34 = sidB ++ body.drop consumed ∧ (sidB = [0#8] ∨ sidB.length = 33) := by
    split_ifs at e4 with hz
    · obtain ⟨s, e4', e4⟩ := Res.bind_eq_ok.1 e4
      obtain ⟨rfl, -⟩ := Prod.mk.inj (Res.ok.inj e4)
      obtain ⟨d4, l4⟩ := drop_slice e4'
      exact ⟨[sl] ++ s, by rw [d3, d4, List.append_assoc], .inr (by simp [l4])⟩
    · obtain ⟨rfl, -⟩ := Prod.mk.inj (Res.ok.inj e4)
      exact ⟨[sl], d3, .inl (by rw [not_not.1 hz])⟩
  obtain ⟨sidB, d4, hsid⟩ := hsid
  have hcomp : ∃ comp, body.drop (consumed + 2) = comp ++ body.drop (consumed + 3) ∧ comp.length = 1 := by
    have hlt : consumed + 3 < body.length := by
      by_contra hc
      unfold idx at e8
      rw [List.getElem?_eq_none (by omega)] at e8
      cases e8
    exact ⟨[body[consumed + 2]'(by omega)], List.drop_eq_getElem_cons (by omega), rfl⟩
  obtain ⟨comp, d6, l6⟩ := hcomp
  refine ⟨body, random, sidB, comp, eb, body.drop (consumed + 3 + 2 + ((x0.toNat <<< 8) ||| x1.toNat)), after, (c0.toNat <<< 8) ||| c1.toNat, rfl, ?_, by rw [l2], hsid, l6, ?_, ?_, ?_⟩
  · have h33 : beBytes 2 0x0303 = [3#8, 3#8] := by decide
    have hl : eb.length = (x0.toNat <<< 8) ||| x1.toNat := by rw [l10]; omega
    conv_lhs => rw [← List.drop_zero (l := body), d0, hv, d2, d4, d5, d6, d8, d10]
    rw [Tls13.vec2, hl, h33]
    simp only [List.append_assoc]
  · unfold CipherSuite.new at e7
    split_ifs at e7 with g1 g2 g3 g4
    · rw [g1]; decide
    · rw [g2]; decide
    · rw [g3]; decide
    · obtain rfl := Res.ok.inj e7
      cases hc
  · unfold ServerHello.tls13Supported at htls
    rw [decide_eq_true_eq, List.findSome?_eq_some_iff] at htls
    obtain ⟨l1, e, l3, hsplit, he, _⟩ := htls
    rcases extensions_from _ _ _ _ e11 e (by rw [hsplit]; simp) with h7 | ⟨b, size, v, rfl, p2, p3, p4⟩ | ⟨k, size, rfl, p2, p3⟩ | ⟨l, rfl⟩
    · cases h7
    · rw [p3 (Option.some.inj he)] at p4
      exact ⟨size, p2, p4⟩
    · cases he
    · cases he
  · unfold ServerHello.getPublicKeyShare at hk
    rw [List.findSome?_eq_some_iff] at hk
    obtain ⟨l1, e, l3, hsplit, he, _⟩ := hk
    have hsplit : exts = l1 ++ e :: l3 := hsplit
    rcases extensions_from _ _ _ _ e11 e (by rw [hsplit]; simp) with h7 | ⟨b, size, v, rfl, p2, p3, p4⟩ | ⟨k, size, rfl, p2, p3⟩ | ⟨l, rfl⟩
    · cases h7
    · cases he
    · exact ⟨size, p2, p3 share (List.mem_of_mem_head? he) hg⟩
    · cases he

/-- The handshake only goes on with such a ServerHello. -/
theorem answered_selects {x : Params} {n : Int} {ch sh : Bytes} (h : ServerAnswered x n ch sh) :
    ∃ key, Tls13.Selects13 sh key ∧ sharedSecret ⟨.curve25519, n⟩ key = .ok x.ecdhe := by
  obtain ⟨hs, hello, share, e1, e2, e3, e4, e5, e6, e7, _, e9, _⟩ := h
  obtain ⟨i1, i2, _, _⟩ := FlowProof.handshake_inv e1
  refine ⟨share.opaq, ?_, e6⟩
  rw [e2] at i1
  rw [i2, i1]
  exact hello_selects e3 e4 e5 (by rw [← e7]; exact e9) _

theorem readLoop_first {env : ClientEnv} {fuel : Nat} {n : Int} {ch message record more : Bytes} {later : List Bytes} {h h' : ClientHandshake}
    (hw : ClientHandshake.readLoop env fuel [] h = (.ok (), h')) (hs : h.state = .serverHello) (hch : h.clientHelloBytes = some ch) (hl : ch.length < 2 ^ 26)
    (hk : h.privateKey = ⟨.curve25519, n⟩) (hi : h.stream.stream.incoming = (record ++ more) :: later) (h2 : (record ++ more).length ≤ 2048)
    (hr : Tls13.IsRecord 22#8 message record) : ∃ x, ServerAnswered x n ch message := by
  obtain ⟨v1, v2, hml, rfl⟩ := hr
  cases fuel with
  | zero => cases hw
  | succ fuel =>
    unfold ClientHandshake.readLoop at hw
    rw [Step.bind_get, hs] at hw
    rw [if_neg (by decide)] at hw
    sbind hw with ⟨rx, h1, e1, hw⟩
    obtain ⟨s1, e1', rfl⟩ := ClientProof.onStream_ok e1
    clear e1
    have e1 := e1'
    clear e1'
    unfold TlsStream.tcpRead at e1
    rw [hi] at e1
    simp only [List.take_of_length_le h2] at e1
    rw [if_neg (by simp)] at e1
    have hrx := Res.ok.inj (Prod.mk.inj e1).1
    subst hrx
    have hs1 := (Prod.mk.inj e1).2
    rw [if_pos rfl] at hw
    sbind hw with ⟨d, h2, e2, hw⟩
    clear hw
    unfold ClientHandshake.recordsLoop at e2
    rw [if_pos (.inl (by simp)), if_pos rfl] at e2
    slift e2 with ⟨buf, e3, e2⟩
    have hbuf : buf = [22#8, v1, v2] ++ beBytes 2 message.length ++ message ++ more := by
      simp only [sliceFrom] at e3
      rw [if_pos (by omega)] at e3
      exact (Res.ok.inj e3).symm
    rw [hbuf, RecProof.beBytes2] at e2
    have hraw := RecProof.fromRaw_header .handshake v1 v2 message more hml
    rw [show [22#8, v1, v2] ++ [BitVec.ofNat 8 (message.length / 256), BitVec.ofNat 8 message.length] =
      [RecordType.handshake.code, v1, v2, BitVec.ofNat 8 (message.length / 256), BitVec.ofNat 8 message.length] from rfl, hraw] at e2
    simp only [] at e2
    sbind e2 with ⟨u, h3, e4, e2⟩
    unfold ClientHandshake.handleRecord at e4
    rw [Step.bind_get] at e4
    simp only [hs] at e4
    rw [if_neg (by decide)] at e4
    obtain ⟨x, _, hx, _⟩ := ClientProof.serverHello_ok (n := n) e4 hch hl hk hml
    exact ⟨x, hx⟩

theorem connect_first {env : ClientEnv} {reads : List Bytes} {sock : Socket} {s : TlsStream} {h : Option ClientHandshake} {message record more : Bytes}
    {later : List Bytes} (hn : ∀ a, env.config.serverName = some a → a.length < 2 ^ 24) (hi : sock.incoming = (record ++ more) :: later)
    (h2 : (record ++ more).length ≤ 2048) (hr : Tls13.IsRecord 22#8 message record) (hw : ClientConnection.connect env reads sock = (.ok s, h)) :
    ∃ x n ch, Offered env reads n ch ∧ ServerAnswered x n ch message := by
  unfold ClientConnection.connect ClientHandshake.new at hw
  cases hb : ((Rng.urandom reads).between 1 32 : Res TlsError (Int × Rng)) with
  | err e => rw [hb] at hw; cases hw
  | panic => rw [hb] at hw; cases hw
  | ok v =>
    obtain ⟨n, rng⟩ := v
    rw [hb] at hw
    simp only [Res.ok_bind] at hw
    obtain ⟨h0, hh0⟩ : ∃ h0, h0 = ClientHandshake.mk (TlsStream.new sock) .serverHello none none rng none ⟨.curve25519, n⟩ none none none [] := ⟨_, rfl⟩
    rw [← hh0] at hw
    rcases hd : ClientHandshake.doHandshakeWithError env h0 with ⟨r, h1⟩
    rw [hd] at hw
    cases r with
    | err e => cases hw
    | panic => cases hw
    | ok u =>
      unfold ClientHandshake.doHandshakeWithError at hd
      rcases hd2 : ClientHandshake.doHandshake env h0 with ⟨r, h2⟩
      rw [hd2] at hd
      cases r with
      | err e =>
        simp only [] at hd
        split_ifs at hd
        · sbind hd with ⟨v, h3, e3, hd⟩
          exact absurd hd Step.throw_ok
        · exact absurd hd Step.throw_ok
      | panic => cases hd
      | ok u =>
        unfold ClientHandshake.doHandshake at hd2
        sbind hd2 with ⟨u, h3, e3, hd2⟩
        obtain ⟨ch, k, g1, g2, g3, g4, g5, g6, g7, g8, g9, g10, g11, g12, g13, g14⟩ := ClientProof.hello_ok (reads := reads) (n := n) e3 (by rw [hh0]; exact hb)
          (by rw [hh0]) hn (by rw [hh0]; rfl)
        obtain ⟨x, hx⟩ := readLoop_first (n := n) (ch := ch) hd2 (by rw [g8, hh0]) g5 g2 (by rw [g6, hh0]) (by rw [g11, hh0]; exact hi) (by assumption) hr
        exact ⟨x, n, ch, g1, hx⟩

end AnswerProof

/-- C87 without the comparison with the session id: the client only connects after a ServerHello for TLS 1.3 with one of the three suites and an X25519
share. (Missing: that the session id is the client's, that there is nothing else in the message, and the lengths of the two extensions.) -/
theorem C87_selects_partial : C87_for fun _ message => ∃ key, Tls13.Selects13 message key := by
  intro env reads sock s h random sid share message record more later n hn _ hi h2 hr hw
  obtain ⟨x, n, ch, _, hx⟩ := AnswerProof.connect_first hn hi h2 hr hw
  obtain ⟨key, hk, _⟩ := AnswerProof.answered_selects hx
  exact ⟨key, hk⟩

/-- The same of every completed handshake, however the bytes arrive: the ServerHello from which the keys of the connection come is for TLS 1.3, with one of
the three suites, and the shared secret is that with the X25519 share in it. -/
theorem C87_every_run_partial (env : ClientEnv) (reads : List Bytes) (sock : Socket) (s : TlsStream) (h : Option ClientHandshake)
    (hcl : ∀ c, env.config.clientCert = some c → c.raw.length < 2 ^ 24) (hn : ∀ n, env.config.serverName = some n → n.length < 2 ^ 24)
    (hin : sock.incoming.flatten.length < 2 ^ 24) (hw : ClientConnection.connect env reads sock = (.ok s, h)) :
    ∃ r key, ClientCompleted env reads sock s r ∧ Tls13.Selects13 r.sh key ∧ sharedSecret ⟨.curve25519, r.n⟩ key = .ok r.x.ecdhe := by
  obtain ⟨r, hr⟩ := C45_client_connects env reads sock s h hcl hn hin hw
  obtain ⟨key, h1, h2⟩ := AnswerProof.answered_selects hr.answered
  exact ⟨r, key, hr, h1, h2⟩

/-- The hypotheses of C87 are met: the example client connects to an RFC 8446 server with the repository's certificate, whatever session id that server
sends back. -/
theorem C87_example (sid : Bytes) (hsl : sid.length = 32) : ∃ (v : Tls13.Server) (record : Bytes) (later : List Bytes) (s : TlsStream) (h : _),
    (v.helloMsg sid).Valid ∧ Tls13.IsRecord 22#8 (v.hello sid) record ∧ record.length ≤ 2048 ∧
    Offered (exampleClient (some (ascii "anothertls.local"))) [zeros 100, zeros 100, zeros 100] 256 exampleOffer ∧
    ClientConnection.connect (exampleClient (some (ascii "anothertls.local"))) [zeros 100, zeros 100, zeros 100] ⟨record :: later, [], []⟩ = (.ok s, h) := by
  obtain ⟨r, s, shRec, records, h1, h2, h3, hin⟩ := server_exists_sid false exampleOffer offer_short sid hsl
  obtain ⟨env, henv⟩ : ∃ env : ClientEnv, env = exampleClient (some (ascii "anothertls.local")) := ⟨_, rfl⟩
  have hname : env.config.serverName = some (ascii "anothertls.local") := by rw [henv]; rfl
  have hnow : env.now = june2023 := by rw [henv]; rfl
  obtain ⟨v, hv⟩ : ∃ v, v = rfcServer (exampleRequests false) r s := ⟨_, rfl⟩
  rw [← hv, ← hnow] at h1
  rw [← hv] at h2
  have hoff : Offered env [zeros 100, zeros 100, zeros 100] 256 exampleOffer :=
    ⟨_, _, _, zeros 32, zeros 32, example_between.1, rfl, rfl, by simp [zeros], by simp [zeros], by norm_num, by norm_num, by rw [hname]; rfl⟩
  obtain ⟨w1, w2, w3, w4, w5, w6, w7⟩ := example_handled env hnow false r s records (by simp)
  rw [← hv] at w1 w2 w3 w4 w6
  obtain ⟨x, hxs, hl, _, hconf⟩ := conforming_rfc hoff hsl (by norm_num) offer_short rfl rfl h1 h2 w1 w2 w3 w4 w6
  have hreq : v.requests = [] := by rw [hv]; rfl
  obtain ⟨str, h, _, _, k1, _⟩ := C76_client_completes env _ 256 x exampleOffer _ shRec _ [] records [] (shRec :: records)
    (by
      intro c hc
      rw [henv] at hc
      obtain rfl := Option.some.inj hc
      have : (Spec.X509.certificate ownTbs ownR ownS).length ≤ 16000 := by decide +kernel
      exact le_trans (Nat.add_le_add_right this 400) (by norm_num)) (hconf [] (by rw [hreq]; exact rfl)) (by simp) h3
  have hrecl : shRec.length ≤ 2048 := by
    obtain ⟨v1, v2, _, e⟩ := h2.hello
    have := hello_length (exampleRequests false) r s hsl
    rw [← hv] at this
    rw [e]
    simp only [List.length_append, this, beBytes_length, List.length_cons, List.length_nil]
    omega
  rw [henv] at k1 hoff
  exact ⟨v, shRec, records, str, h, h1.hello, h2.hello, hrecl, hoff, k1⟩

/-- C87 is false as stated: the client connects to a server that sends back another session id than the client's. -/
theorem C87_false : ¬ C87_statement := by
  intro hC
  obtain ⟨sid, hsid⟩ : ∃ sid : Bytes, sid = List.replicate 32 1#8 := ⟨_, rfl⟩
  have hsl : sid.length = 32 := by rw [hsid]; rfl
  obtain ⟨v, shRec, records, str, h, hvalid, hrec, hrecl, hoff, k1⟩ := C87_example sid hsl
  obtain ⟨m, hm, e1, e2, _⟩ := hC (exampleClient (some (ascii "anothertls.local"))) _ _ _ _ (zeros 32) (zeros 32) (publicShare 256) (v.hello sid) shRec [] records 256 (by
    intro a ha; obtain rfl := Option.some.inj ha; decide +kernel) hoff (by rw [List.append_nil]) (by rw [List.append_nil]; exact hrecl) hrec k1
  have key : ∀ (a : Tls13.ServerHelloMsg), a.random.length = 32 → a.sessionId.length = 32 → ((Tls13.handshakeMessage 2#8 a.bytes).drop 39).take 32 = a.sessionId := by
    intro a ha hb
    have : Tls13.handshakeMessage 2#8 a.bytes = ([2#8] ++ beBytes 3 a.bytes.length ++ beBytes 2 0x0303 ++ a.random ++ beBytes 1 a.sessionId.length) ++ (a.sessionId ++
        (beBytes 2 a.suite ++ [0#8] ++ Tls13.vec2 (a.exts.map Tls13.ServerExt.bytes).flatten)) := by
      simp only [Tls13.handshakeMessage, Tls13.ServerHelloMsg.bytes, List.append_assoc]
    rw [this, List.drop_left' (by simp only [List.length_append, beBytes_length, ha, List.length_singleton]), List.take_left' hb]
  have h4 := key m hm.random (by rw [e2]; simp [zeros])
  have h5 := key (v.helloMsg sid) hvalid.random hsl
  rw [← e1, e2] at h4
  have h6 : zeros 32 = sid := h4.symm.trans h5
  rw [hsid] at h6
  exact absurd h6 (by decide)

end ATLS
