import Verif.Props.Hello
/-
C37: what becomes of hello messages that end too early.
-/
namespace ATLS
open ATLS.Spec ATLS.Spec.Tls13 ATLS.Model ATLS.WireProof ATLS.HelloProof

namespace HelloProof

theorem idx_take {ε : Type} (b : Bytes) (k i : Nat) (h : i < k) : idx (ε := ε) (b.take k) i = idx b i := by
  unfold idx
  rw [List.getElem?_take_of_lt h]

theorem idx_take_panic {ε : Type} (b : Bytes) (k i : Nat) (h : k ≤ i) : idx (ε := ε) (b.take k) i = .panic := by
  rw [idx_panic_iff, List.length_take]
  omega

theorem slice_take {ε : Type} (b : Bytes) (k i j : Nat) (h : j ≤ k) : slice (ε := ε) (b.take k) i j = slice b i j := by
  unfold slice
  have e : (i ≤ j ∧ j ≤ (b.take k).length) ↔ (i ≤ j ∧ j ≤ b.length) := by rw [List.length_take]; omega
  by_cases hc : i ≤ j ∧ j ≤ b.length
  · rw [if_pos (e.2 hc), if_pos hc, List.drop_take, List.take_take, Nat.min_eq_left (by omega)]
  · rw [if_neg (fun x => hc (e.1 x)), if_neg hc]

theorem slice_take_panic {ε : Type} (b : Bytes) (k i j : Nat) (h : k < j) : slice (ε := ε) (b.take k) i j = .panic := by
  rw [slice_panic_iff, List.length_take]
  omega

theorem suites_returns (buf : Bytes) : ∀ (n i : Nat) (acc : List CipherSuite) (e : TlsError), ClientHello.suitesLoop buf n i acc ≠ .err e := by
  intro n
  induction n with
  | zero => intro i acc e; simp [ClientHello.suitesLoop]
  | succ n ih =>
    intro i acc e
    rw [ClientHello.suitesLoop]
    rcases h1 : idx (ε := TlsError) buf i with a | a | _
    · simp only [Res.ok_bind]
      rcases h2 : idx (ε := TlsError) buf (i + 1) with b | b | _
      · simp only [Res.ok_bind]
        exact ih _ _ _
      · unfold idx at h2; cases hb : buf[i + 1]? <;> rw [hb] at h2 <;> cases h2
      · simp
    · unfold idx at h1; cases hb : buf[i]? <;> rw [hb] at h1 <;> cases h1
    · simp

end HelloProof

/-- C37, exactly: what a server makes of the first `k` bytes of a ClientHello, for every ClientHello of RFC 8446 with a session id of 0 or 32 bytes and
every `k`: it is refused if it has less than 45 bytes or ends two bytes before the end of the suites at the latest (but not within the session id or
the length of the suites); everywhere else the parser panics. -/
theorem C37_truncated_client (h : ClientHelloMsg) (hv : h.Valid) (hs : h.sessionId.length = 0 ∨ h.sessionId.length = 32) (k : Nat)
    (hk : k < h.bytes.length) :
    ClientHello.fromRaw (h.bytes.take k) =
      if k < 45 ∨ (37 + h.sessionId.length ≤ k ∧ k < 35 + h.sessionId.length + 2 * h.suites.length) then .err .illegalParameter else .panic := by
  obtain ⟨random, sid, suites, exts⟩ := h
  obtain ⟨hr, _, ⟨hs1, hs2, hs3⟩, he, hel1, hel⟩ := hv
  simp only at hr hs1 hs2 hs3 he hel1 hel hs ⊢
  obtain ⟨eb, heb⟩ : ∃ eb, eb = (exts.map ClientExt.bytes).flatten := ⟨_, rfl⟩
  rw [← heb] at hel hel1
  obtain ⟨buf, hbuf⟩ : ∃ buf, buf = 3#8 :: 3#8 :: (random ++ (BitVec.ofNat 8 sid.length :: (sid ++ (beBytes 2 (u16s suites).length ++ (u16s suites ++
        (1#8 :: 0#8 :: (beBytes 2 eb.length ++ eb))))))) := ⟨_, rfl⟩
  have hbytes : (ClientHelloMsg.mk random sid suites exts).bytes = buf := by
    rw [hbuf]
    simp only [ClientHelloMsg.bytes, vec2, ← heb]
    rw [show beBytes 2 0x0303 = [3#8, 3#8] from by decide, beBytes1]
    simp
  rw [hbytes] at hk ⊢
  have hul := u16s_length suites
  have hblen : buf.length = 41 + sid.length + 2 * suites.length + eb.length := by
    rw [hbuf]; simp [hul, hr]; omega
  unfold ClientHello.fromRaw
  have hlt : (buf.take k).length = k := by rw [List.length_take]; omega
  rw [hlt]
  by_cases h45 : k < 45
  · rw [if_pos h45, if_pos (.inl h45)]
  rw [if_neg h45]
  have i0 : idx (ε := TlsError) buf 0 = .ok 3#8 := by rw [hbuf]; rfl
  have i1 : idx (ε := TlsError) buf 1 = .ok 3#8 := by rw [hbuf]; rfl
  rw [idx_take _ _ _ (by omega), idx_take _ _ _ (by omega), i0, i1]
  simp only [Res.ok_bind]
  rw [if_neg (by decide)]
  have hrand : slice (ε := TlsError) buf 2 34 = .ok random := by
    rw [hbuf]; exact slice_mid [3#8, 3#8] random _ rfl (by omega)
  have i34 : idx (ε := TlsError) buf 34 = .ok (BitVec.ofNat 8 sid.length) := by
    rw [hbuf]
    have := idx_append (ε := TlsError) (3#8 :: 3#8 :: random) (BitVec.ofNat 8 sid.length) (sid ++ (beBytes 2 (u16s suites).length ++ (u16s suites ++
        (1#8 :: 0#8 :: (beBytes 2 eb.length ++ eb))))) (n := 34) (by simp [hr])
    simpa using this
  rw [slice_take _ _ _ _ (by omega), idx_take _ _ _ (by omega), hrand, i34]
  simp only [Res.ok_bind]
  -- within the session id
  by_cases hsk : k < 35 + sid.length
  · have h32 : sid.length = 32 := by omega
    rw [h32, if_pos (by decide), slice_take_panic _ _ _ _ (by omega), if_neg (by omega)]
    simp
  have hsid : ((if BitVec.ofNat 8 sid.length ≠ 0#8 then do
          let s ← slice (buf.take k) 35 (35 + 32)
          .ok (35 + 32, some s)
        else .ok (35, none)) : Res TlsError (Nat × Option Bytes)) = .ok (35 + sid.length, if sid = [] then none else some sid) := by
    rcases hs with h0 | h32
    · have : sid = [] := List.eq_nil_of_length_eq_zero h0
      subst this
      rfl
    · rw [h32, if_pos (by decide)]
      have : slice (ε := TlsError) buf 35 (35 + 32) = .ok sid := by
        rw [hbuf]
        have := slice_mid (ε := TlsError) (3#8 :: 3#8 :: (random ++ [BitVec.ofNat 8 sid.length])) sid (beBytes 2 (u16s suites).length ++ (u16s suites ++
          (1#8 :: 0#8 :: (beBytes 2 eb.length ++ eb)))) (n := 35) (m := 35 + 32) (by simp [hr]) (by omega)
        simpa using this
      rw [slice_take _ _ _ _ (by omega), this]
      have hne : sid ≠ [] := by rintro rfl; simp at h32
      rw [if_neg hne]
      rfl
  rw [hsid]
  simp only [Res.ok_bind]
  obtain ⟨p1, hp1⟩ : ∃ p1, p1 = 3#8 :: 3#8 :: (random ++ (BitVec.ofNat 8 sid.length :: sid)) := ⟨_, rfl⟩
  have hp1l : p1.length = 35 + sid.length := by rw [hp1]; simp [hr]; omega
  have hb1 : buf = p1 ++ (beBytes 2 (u16s suites).length ++ (u16s suites ++ (1#8 :: 0#8 :: (beBytes 2 eb.length ++ eb)))) := by
    rw [hbuf, hp1]; simp
  have hc0 : idx (ε := TlsError) buf (35 + sid.length) = .ok (BitVec.ofNat 8 ((u16s suites).length / 256)) := by
    rw [hb1, beBytes2]; exact idx_append p1 _ _ hp1l.symm
  have hc1 : idx (ε := TlsError) buf (35 + sid.length + 1) = .ok (BitVec.ofNat 8 (u16s suites).length) := by
    rw [hb1, beBytes2]
    have := idx_append (ε := TlsError) (p1 ++ [BitVec.ofNat 8 ((u16s suites).length / 256)]) (BitVec.ofNat 8 (u16s suites).length)
      (u16s suites ++ (1#8 :: 0#8 :: (beBytes 2 eb.length ++ eb))) (n := 35 + sid.length + 1) (by simp [hp1l])
    simpa using this
  -- within the length of the suites
  by_cases hck : k < 37 + sid.length
  · have hR : (if k < 45 ∨ (37 + sid.length ≤ k ∧ k < 35 + sid.length + 2 * suites.length) then .err .illegalParameter else .panic : Res TlsError ClientHello) =
        .panic := if_neg (by omega)
    rw [hR]
    by_cases hc : k ≤ 35 + sid.length
    · rw [idx_take_panic _ _ _ hc]; rfl
    · rw [idx_take _ _ _ (by omega), hc0, idx_take_panic buf k (35 + sid.length + 1) (by omega)]; rfl
  rw [idx_take _ _ _ (by omega), idx_take _ _ _ (by omega), hc0, hc1]
  simp only [Res.ok_bind]
  have hslen : ((BitVec.ofNat 8 ((u16s suites).length / 256)).toNat <<< 8) ||| (BitVec.ofNat 8 (u16s suites).length).toNat =
      2 * suites.length := by
    rw [shl_or _ _ (BitVec.isLt _), hul]
    simp only [BitVec.toNat_ofNat]; omega
  rw [hslen]
  by_cases hsu : k < 35 + sid.length + 2 * suites.length
  · rw [if_pos (.inr hsu), if_pos (by omega)]
  have hR : (if k < 45 ∨ (37 + sid.length ≤ k ∧ k < 35 + sid.length + 2 * suites.length) then .err .illegalParameter else .panic : Res TlsError ClientHello) =
      .panic := if_neg (by omega)
  rw [hR, if_neg (by omega)]
  -- from here on every end is a panic
  rcases hl : ClientHello.suitesLoop (buf.take k) (2 * suites.length / 2) (35 + sid.length + 2) [] with cs | e | _
  · simp only [Res.ok_bind]
    obtain ⟨p2, hp2⟩ : ∃ p2, p2 = p1 ++ (beBytes 2 (u16s suites).length ++ (u16s suites ++ [1#8, 0#8])) := ⟨_, rfl⟩
    have hp2l : p2.length = 35 + sid.length + 2 + 2 * suites.length + 2 := by rw [hp2]; simp [hp1l, hul]; omega
    have hb2 : buf = p2 ++ (beBytes 2 eb.length ++ eb) := by rw [hb1, hp2]; simp
    have he0 : idx (ε := TlsError) buf (35 + sid.length + 2 + 2 * suites.length + 2) = .ok (BitVec.ofNat 8 (eb.length / 256)) := by
      rw [hb2, beBytes2]; exact idx_append p2 _ _ hp2l.symm
    have he1 : idx (ε := TlsError) buf (35 + sid.length + 2 + 2 * suites.length + 2 + 1) = .ok (BitVec.ofNat 8 eb.length) := by
      rw [hb2, beBytes2]
      have := idx_append (ε := TlsError) (p2 ++ [BitVec.ofNat 8 (eb.length / 256)]) (BitVec.ofNat 8 eb.length) eb
        (n := 35 + sid.length + 2 + 2 * suites.length + 2 + 1) (by simp [hp2l])
      simpa using this
    have helen : ((BitVec.ofNat 8 (eb.length / 256)).toNat <<< 8) ||| (BitVec.ofNat 8 eb.length).toNat = eb.length := by
      rw [shl_or _ _ (BitVec.isLt _)]
      simp only [BitVec.toNat_ofNat]; omega
    by_cases h1 : k ≤ 35 + sid.length + 2 + 2 * suites.length + 2
    · rw [idx_take_panic _ _ _ h1]; rfl
    rw [idx_take _ _ _ (by omega), he0]
    simp only [Res.ok_bind]
    by_cases h2 : k ≤ 35 + sid.length + 2 + 2 * suites.length + 2 + 1
    · rw [idx_take_panic _ _ _ h2]; rfl
    rw [idx_take _ _ _ (by omega), he1]
    simp only [Res.ok_bind]
    rw [helen, slice_take_panic _ _ _ _ (by omega)]
    rfl
  · exact absurd hl (suites_returns _ _ _ _ e)
  · rfl

/-- The same for a client and the first `k` bytes of a ServerHello: it is refused if it has less than 36 bytes, or if it names an unknown suite and does
not end before it; everywhere else the parser panics. -/
theorem C37_truncated_server (h : ServerHelloMsg) (hv : h.Valid) (hs : h.sessionId.length = 0 ∨ h.sessionId.length = 32) (k : Nat)
    (hk : k < h.bytes.length) :
    ServerHello.fromRaw (h.bytes.take k) =
      if k < 36 then .err .illegalParameter
      else if 37 + h.sessionId.length ≤ k ∧ h.suite ∉ Tls13.suiteCodes.map Prod.fst then .err .insufficientSecurity else .panic := by
  obtain ⟨random, sid, suite, exts⟩ := h
  obtain ⟨hr, _, hsu, he, hel⟩ := hv
  simp only at hr hsu he hel hs ⊢
  obtain ⟨eb, heb⟩ : ∃ eb, eb = (exts.map ServerExt.bytes).flatten := ⟨_, rfl⟩
  rw [← heb] at hel
  obtain ⟨buf, hbuf⟩ : ∃ buf, buf = 3#8 :: 3#8 :: (random ++ (BitVec.ofNat 8 sid.length :: (sid ++ (beBytes 2 suite ++
        (0#8 :: (beBytes 2 eb.length ++ eb)))))) := ⟨_, rfl⟩
  have hbytes : (ServerHelloMsg.mk random sid suite exts).bytes = buf := by
    rw [hbuf]
    simp only [ServerHelloMsg.bytes, vec2, ← heb]
    rw [show beBytes 2 0x0303 = [3#8, 3#8] from by decide, beBytes1]
    simp
  rw [hbytes] at hk ⊢
  have hblen : buf.length = 40 + sid.length + eb.length := by
    rw [hbuf]; simp [hr]; omega
  unfold ServerHello.fromRaw
  have hlt : (buf.take k).length = k := by rw [List.length_take]; omega
  rw [hlt]
  by_cases h36 : k < 36
  · rw [if_pos h36, if_pos h36]
  rw [if_neg h36, if_neg h36]
  have i0 : idx (ε := TlsError) buf 0 = .ok 3#8 := by rw [hbuf]; rfl
  have i1 : idx (ε := TlsError) buf 1 = .ok 3#8 := by rw [hbuf]; rfl
  rw [idx_take _ _ _ (by omega), idx_take _ _ _ (by omega), i0, i1]
  simp only [Res.ok_bind]
  rw [if_neg (by decide)]
  have hrand : slice (ε := TlsError) buf 2 34 = .ok random := by
    rw [hbuf]; exact slice_mid [3#8, 3#8] random _ rfl (by omega)
  have i34 : idx (ε := TlsError) buf 34 = .ok (BitVec.ofNat 8 sid.length) := by
    rw [hbuf]
    have := idx_append (ε := TlsError) (3#8 :: 3#8 :: random) (BitVec.ofNat 8 sid.length) (sid ++ (beBytes 2 suite ++
        (0#8 :: (beBytes 2 eb.length ++ eb)))) (n := 34) (by simp [hr])
    simpa using this
  rw [slice_take _ _ _ _ (by omega), idx_take _ _ _ (by omega), hrand, i34]
  simp only [Res.ok_bind]
  by_cases hsk : k < 35 + sid.length
  · have h32 : sid.length = 32 := by omega
    rw [h32, if_pos (by decide), slice_take_panic _ _ _ _ (by omega), if_neg (by omega)]
    simp
  have hsid : ((if BitVec.ofNat 8 sid.length ≠ 0#8 then do
          let s ← slice (buf.take k) 35 (35 + 32)
          .ok (35 + 32, some s)
        else .ok (35, none)) : Res TlsError (Nat × Option Bytes)) = .ok (35 + sid.length, if sid = [] then none else some sid) := by
    rcases hs with h0 | h32
    · have : sid = [] := List.eq_nil_of_length_eq_zero h0
      subst this
      rfl
    · rw [h32, if_pos (by decide)]
      have : slice (ε := TlsError) buf 35 (35 + 32) = .ok sid := by
        rw [hbuf]
        have := slice_mid (ε := TlsError) (3#8 :: 3#8 :: (random ++ [BitVec.ofNat 8 sid.length])) sid (beBytes 2 suite ++
          (0#8 :: (beBytes 2 eb.length ++ eb))) (n := 35) (m := 35 + 32) (by simp [hr]) (by omega)
        simpa using this
      rw [slice_take _ _ _ _ (by omega), this]
      have hne : sid ≠ [] := by rintro rfl; simp at h32
      rw [if_neg hne]
      rfl
  rw [hsid]
  simp only [Res.ok_bind]
  obtain ⟨p1, hp1⟩ : ∃ p1, p1 = 3#8 :: 3#8 :: (random ++ (BitVec.ofNat 8 sid.length :: sid)) := ⟨_, rfl⟩
  have hp1l : p1.length = 35 + sid.length := by rw [hp1]; simp [hr]; omega
  have hb1 : buf = p1 ++ (beBytes 2 suite ++ (0#8 :: (beBytes 2 eb.length ++ eb))) := by
    rw [hbuf, hp1]; simp
  have hc0 : idx (ε := TlsError) buf (35 + sid.length) = .ok (BitVec.ofNat 8 (suite / 256)) := by
    rw [hb1, beBytes2]; exact idx_append p1 _ _ hp1l.symm
  have hc1 : idx (ε := TlsError) buf (35 + sid.length + 1) = .ok (BitVec.ofNat 8 suite) := by
    rw [hb1, beBytes2]
    have := idx_append (ε := TlsError) (p1 ++ [BitVec.ofNat 8 (suite / 256)]) (BitVec.ofNat 8 suite)
      (0#8 :: (beBytes 2 eb.length ++ eb)) (n := 35 + sid.length + 1) (by simp [hp1l])
    simpa using this
  by_cases hck : k < 37 + sid.length
  · have hR : (if 37 + sid.length ≤ k ∧ suite ∉ Tls13.suiteCodes.map Prod.fst then .err .insufficientSecurity else .panic : Res TlsError ServerHello) =
        .panic := if_neg (by omega)
    rw [hR]
    by_cases hc : k ≤ 35 + sid.length
    · rw [idx_take_panic _ _ _ hc]; rfl
    · rw [idx_take _ _ _ (by omega), hc0, idx_take_panic buf k (35 + sid.length + 1) (by omega)]; rfl
  rw [idx_take _ _ _ (by omega), idx_take _ _ _ (by omega), hc0, hc1]
  simp only [Res.ok_bind]
  have hslen : ((BitVec.ofNat 8 (suite / 256)).toNat <<< 8) ||| (BitVec.ofNat 8 suite).toNat = suite := by
    rw [shl_or _ _ (BitVec.isLt _)]
    simp only [BitVec.toNat_ofNat]; omega
  rw [hslen]
  by_cases hcs : suite ∉ Tls13.suiteCodes.map Prod.fst
  · have hR : (if 37 + sid.length ≤ k ∧ suite ∉ Tls13.suiteCodes.map Prod.fst then .err .insufficientSecurity else .panic : Res TlsError ServerHello) =
        .err .insufficientSecurity := if_pos ⟨by omega, hcs⟩
    rw [hR]
    have : CipherSuite.new suite = .err .insufficientSecurity := by
      simp only [Tls13.suiteCodes, List.map_cons, List.map_nil, List.mem_cons, List.not_mem_nil, or_false, not_or] at hcs
      unfold CipherSuite.new
      rw [if_neg hcs.2.1, if_neg hcs.2.2.1, if_neg hcs.1, if_neg hcs.2.2.2]
    rw [this]; rfl
  have hR : (if 37 + sid.length ≤ k ∧ suite ∉ Tls13.suiteCodes.map Prod.fst then .err .insufficientSecurity else .panic : Res TlsError ServerHello) =
      .panic := if_neg fun h => hcs h.2
  rw [hR]
  obtain ⟨cs, hnew⟩ : ∃ cs, CipherSuite.new suite = .ok cs := by
    by_contra hn
    apply hcs
    intro hm
    simp only [Tls13.suiteCodes, List.map_cons, List.map_nil, List.mem_cons, List.not_mem_nil, or_false] at hm
    rcases hm with rfl | rfl | rfl | rfl <;> exact hn ⟨_, rfl⟩
  rw [hnew]
  simp only [Res.ok_bind]
  obtain ⟨p2, hp2⟩ : ∃ p2, p2 = p1 ++ (beBytes 2 suite ++ [0#8]) := ⟨_, rfl⟩
  have hp2l : p2.length = 35 + sid.length + 3 := by rw [hp2]; simp [hp1l]
  have hb2 : buf = p2 ++ (beBytes 2 eb.length ++ eb) := by rw [hb1, hp2]; simp
  have he0 : idx (ε := TlsError) buf (35 + sid.length + 3) = .ok (BitVec.ofNat 8 (eb.length / 256)) := by
    rw [hb2, beBytes2]; exact idx_append p2 _ _ hp2l.symm
  have he1 : idx (ε := TlsError) buf (35 + sid.length + 3 + 1) = .ok (BitVec.ofNat 8 eb.length) := by
    rw [hb2, beBytes2]
    have := idx_append (ε := TlsError) (p2 ++ [BitVec.ofNat 8 (eb.length / 256)]) (BitVec.ofNat 8 eb.length) eb
      (n := 35 + sid.length + 3 + 1) (by simp [hp2l])
    simpa using this
  have helen : ((BitVec.ofNat 8 (eb.length / 256)).toNat <<< 8) ||| (BitVec.ofNat 8 eb.length).toNat = eb.length := by
    rw [shl_or _ _ (BitVec.isLt _)]
    simp only [BitVec.toNat_ofNat]; omega
  by_cases h1 : k ≤ 35 + sid.length + 3
  · rw [idx_take_panic _ _ _ h1]; rfl
  rw [idx_take _ _ _ (by omega), he0]
  simp only [Res.ok_bind]
  by_cases h2 : k ≤ 35 + sid.length + 3 + 1
  · rw [idx_take_panic _ _ _ h2]; rfl
  rw [idx_take _ _ _ (by omega), he1]
  simp only [Res.ok_bind]
  rw [helen, slice_take_panic _ _ _ _ (by omega)]
  rfl

/-- A ClientHello and a ServerHello to cut. -/
example : (ClientHelloMsg.mk (zeros 32) [] [0x1301, 0x2a2a] [.keyShare [(29, zeros 32)], .other 0x6a6a [1#8, 2#8]]).Valid ∧
    (ServerHelloMsg.mk (zeros 32) (zeros 32) 0x1301 [.keyShare (29, [1#8, 2#8]), .supportedVersions 0x0304]).Valid := by
  refine ⟨⟨rfl, by simp, ⟨by simp, by simp, by simp⟩, ?_, by decide⟩, ⟨rfl, by decide, by decide, ?_, by decide⟩⟩
  · intro e he
    simp only [List.mem_cons, List.not_mem_nil, or_false] at he
    rcases he with rfl | rfl
    · intro s hs
      simp only [List.mem_cons, List.not_mem_nil, or_false] at hs
      subst hs
      exact ⟨by simp, by simp [zeros]⟩
    · exact ⟨by simp, by simp, by simp, by simp⟩
  · intro e he
    simp only [List.mem_cons, List.not_mem_nil, or_false] at he
    rcases he with rfl | rfl
    · exact ⟨by simp, by simp⟩
    · show (0x0304 : Nat) < 65536
      decide

end ATLS
