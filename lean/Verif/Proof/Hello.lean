import Verif.Proof.Wire
import Verif.Spec.Hello
import Verif.Props.Handshake
/-
What the hello parsers do on RFC-encoded messages.
-/
namespace ATLS.HelloProof
open ATLS ATLS.Spec ATLS.Spec.Tls13 ATLS.Model ATLS.WireProof

theorem toU16_be (v : Nat) (h : v < 65536) (r : Bytes) : toU16 (beBytes 2 v ++ r) = v := by
  rw [← u16Bytes_eq]; exact toU16_u16Bytes v h r

theorem toU16_be' (v : Nat) (h : v < 65536) : toU16 (beBytes 2 v) = v := by
  have := toU16_be v h []
  simpa using this

/-! #### key shares -/

theorem entry_parse (g : NamedGroup) (code : Nat) (hg : NamedGroup.new code = some g) (hc : code < 65536) (key rest : Bytes)
    (hk : key.length + 4 < 65536) :
    KeyShareEntry.parse (share (code, key) ++ rest) = .ok (4 + key.length, ⟨g, key⟩) := by
  unfold KeyShareEntry.parse share vec2
  simp only [List.append_assoc]
  rw [toU16_be _ hc, hg]
  simp only [Res.okOr, Res.ok_bind]
  rw [sliceFrom_ok (beBytes 2 code) _ (by simp)]
  simp only [Res.ok_bind]
  rw [toU16_be _ (by omega), if_neg (by omega)]
  have : slice (ε := TlsError) (beBytes 2 code ++ (beBytes 2 key.length ++ (key ++ rest))) 4 (key.length + 4) = .ok key := by
    have := slice_mid (ε := TlsError) (beBytes 2 code ++ beBytes 2 key.length) key rest (n := 4) (m := key.length + 4) (by simp) (by omega)
    simpa using this
  rw [this]
  rfl

theorem entry_unknown (code : Nat) (hg : NamedGroup.new code = none) (hc : code < 65536) (r : Bytes) :
    KeyShareEntry.parse (beBytes 2 code ++ r) = .err .illegalParameter := by
  unfold KeyShareEntry.parse
  rw [toU16_be _ hc, hg]
  rfl

/-- What becomes of a list of shares: an unknown group is an error, a key shorter than 4 bytes ends the list. -/
def sharesResult : List (Nat × Bytes) → List KeyShareEntry → Res TlsError (List KeyShareEntry)
  | [], acc => .ok acc
  | (c, k) :: l, acc =>
    match NamedGroup.new c with
    | none => .err .illegalParameter
    | some g => if k.length ≤ 3 then .ok acc else sharesResult l (acc ++ [⟨g, k⟩])

theorem share_length (s : Nat × Bytes) : (share s).length = 4 + s.2.length := by
  simp [share, vec2]; omega

theorem shares_loop (l : List (Nat × Bytes)) : ∀ (fuel consumed len : Nat) (acc : List KeyShareEntry), l ≠ [] →
    (∀ s ∈ l, s.1 < 65536 ∧ 1 ≤ s.2.length) → (l.map share).flatten.length < 65536 → l.length ≤ fuel →
    consumed + (l.map share).flatten.length = len + 2 →
    KeyShare.parseLoop fuel (l.map share).flatten consumed len acc = sharesResult l acc := by
  induction l with
  | nil => intro _ _ _ _ h; exact absurd rfl h
  | cons s l ih =>
    intro fuel consumed len acc _ hv hl hf hc
    obtain ⟨c, k⟩ := s
    rcases fuel with _ | fuel
    · simp at hf
    rw [KeyShare.parseLoop, sharesResult]
    simp only [List.map_cons, List.flatten_cons, List.length_append, share_length] at hl hc ⊢
    have hv0 := hv (c, k) (by simp)
    rcases hg : NamedGroup.new c with _ | g
    · have : KeyShareEntry.parse (share (c, k) ++ (l.map share).flatten) = .err .illegalParameter := by
        unfold share
        rw [List.append_assoc]
        exact entry_unknown c hg hv0.1 _
      rw [this]
      rfl
    · rw [entry_parse g c hg hv0.1 k _ (by omega)]
      simp only [Res.ok_bind]
      by_cases h3 : k.length ≤ 3
      · rw [if_pos (by omega), if_pos h3]
      · rw [if_neg (by omega), if_neg h3]
        rcases l with _ | ⟨s2, l2⟩
        · simp only [List.map_nil, List.flatten_nil, List.length_nil] at hc
          rw [if_pos (by omega), sharesResult]
        · have hpos : 1 ≤ ((List.map share (s2 :: l2)).flatten).length - 2 := by
            have := (hv s2 (by simp)).2
            simp only [List.map_cons, List.flatten_cons, List.length_append, share_length]; omega
          rw [if_neg (by omega)]
          have hdrop : (share (c, k) ++ ((s2 :: l2).map share).flatten).drop (4 + k.length) = ((s2 :: l2).map share).flatten := by
            rw [List.drop_left' (by rw [share_length])]
          rw [hdrop]
          refine ih fuel (consumed + (4 + k.length)) len _ (by simp) (fun s hs => hv s (by simp [hs])) (by omega)
            (by simpa using hf) (by omega)

theorem keyShare_server (l : List (Nat × Bytes)) (hv : ∀ s ∈ l, s.1 < 65536 ∧ 1 ≤ s.2.length)
    (hl : (l.map share).flatten.length < 65536) :
    KeyShare.parse (vec2 (l.map share).flatten) false =
      (if l = [] then .err .illegalParameter else do
        let es ← sharesResult l []
        .ok ⟨es⟩) := by
  unfold KeyShare.parse vec2
  simp only [Bool.false_eq_true, if_false]
  rw [sliceFrom_ok _ _ (by simp), toU16_be _ hl]
  simp only [Res.ok_bind]
  by_cases h : l = []
  · subst h
    rfl
  · rw [if_neg h]
    rw [shares_loop l _ 2 _ [] h hv hl ?_ (by omega)]
    have hlen : ∀ l : List (Nat × Bytes), l.length ≤ (l.map share).flatten.length := by
      intro l
      induction l with
      | nil => simp
      | cons s l ih => simp only [List.map_cons, List.flatten_cons, List.length_append, List.length_cons, share_length]; omega
    have := hlen l
    simp only [List.length_append, beBytes_length]
    omega

theorem keyShare_client (s : Nat × Bytes) (hc : s.1 < 65536) (hl : s.2.length + 4 < 65536) :
    KeyShare.parse (share s) true =
      match NamedGroup.new s.1 with
      | none => .err .illegalParameter
      | some g => .ok ⟨if s.2.length ≤ 3 then [] else [⟨g, s.2⟩]⟩ := by
  obtain ⟨c, k⟩ := s
  unfold KeyShare.parse
  simp only [if_true] at hl hc ⊢
  have h0 : sliceFrom (ε := TlsError) (share (c, k)) 0 = .ok (share (c, k)) := by simp [sliceFrom]
  rw [h0]
  simp only [Res.ok_bind]
  rw [KeyShare.parseLoop]
  rcases hg : NamedGroup.new c with _ | g
  · have : KeyShareEntry.parse (share (c, k)) = .err .illegalParameter := entry_unknown c hg hc _
    rw [this]
    rfl
  · have := entry_parse g c hg hc k [] hl
    rw [List.append_nil] at this
    rw [this]
    simp only [Res.ok_bind]
    by_cases h3 : k.length ≤ 3
    · rw [if_pos (by omega), if_pos h3]; rfl
    · rw [if_neg (by omega), if_neg h3, if_pos (by omega)]; rfl

/-! #### supported versions -/

theorem u16s_length (l : List Nat) : (u16s l).length = 2 * l.length := by
  induction l with
  | nil => rfl
  | cons a l ih => unfold u16s at ih ⊢; simp only [List.map_cons, List.flatten_cons, List.length_append, beBytes_length, ih, List.length_cons]; omega

theorem versions_loop (vs : List Nat) : ∀ (pre rest : Bytes), (∀ v ∈ vs, v < 65536) →
    SupportedVersions.parseLoop (pre ++ (u16s vs ++ rest)) vs.length pre.length = .ok (decide (0x0304 ∈ vs)) := by
  induction vs with
  | nil => intro pre rest _; simp [SupportedVersions.parseLoop]
  | cons v vs ih =>
    intro pre rest hv
    have hu : u16s (v :: vs) = beBytes 2 v ++ u16s vs := by simp [u16s]
    simp only [List.length_cons, SupportedVersions.parseLoop, hu, List.append_assoc]
    rw [slice_mid (m := pre.length + 2) pre (beBytes 2 v) _ rfl (by simp)]
    simp only [Res.ok_bind]
    rw [toU16_be' v (hv v (by simp))]
    by_cases h : v = 0x0304
    · rw [if_pos h]; simp [h]
    · rw [if_neg h]
      have := ih (pre ++ beBytes 2 v) rest (fun w hw => hv w (by simp [hw]))
      simp only [List.length_append, beBytes_length, List.append_assoc] at this
      rw [this]
      have : (772 ∈ v :: vs) ↔ (772 ∈ vs) := by
        simp only [List.mem_cons]
        constructor
        · rintro (h1 | h1)
          · exact absurd h1.symm h
          · exact h1
        · exact Or.inr
      simp [this]

theorem beBytes1 (n : Nat) : beBytes 1 n = [BitVec.ofNat 8 n] := by simp [beBytes]

theorem versions_server (vs : List Nat) (rest : Bytes) (hl : vs.length ≤ 127) (hv : ∀ v ∈ vs, v < 65536) :
    SupportedVersions.serverParse ((beBytes 1 (2 * vs.length) ++ u16s vs) ++ rest) = .ok (decide (0x0304 ∈ vs)) := by
  unfold SupportedVersions.serverParse
  rw [beBytes1]
  have h0 : idx (ε := TlsError) ([BitVec.ofNat 8 (2 * vs.length)] ++ u16s vs ++ rest) 0 = .ok (BitVec.ofNat 8 (2 * vs.length)) := rfl
  rw [h0]
  simp only [Res.ok_bind]
  have hn : (BitVec.ofNat 8 (2 * vs.length)).toNat = 2 * vs.length := by
    rw [BitVec.toNat_ofNat]; omega
  rw [hn, if_pos (by omega), show 2 * vs.length / 2 = vs.length by omega, List.append_assoc]
  exact versions_loop vs [BitVec.ofNat 8 (2 * vs.length)] rest hv

theorem versions_client (v : Nat) (rest : Bytes) (hv : v < 65536) :
    SupportedVersions.clientParse (beBytes 2 v ++ rest) = .ok (decide (v = 0x0304)) := by
  unfold SupportedVersions.clientParse
  rw [slice_pre (beBytes 2 v) rest (by simp)]
  simp only [Res.ok_bind]
  rw [toU16_be' v hv]

/-! #### server name -/

theorem name_parse (n : Bytes) (h : n.length + 5 < 65536) :
    ServerName.serverParse (vec2 (0#8 :: vec2 n)) = if utf8Valid n then .ok n else .err .decodeError := by
  unfold ServerName.serverParse vec2
  rw [toU16_be _ (by simp; omega)]
  rw [if_pos (by simp)]
  have h2 : ∀ a, idx (ε := TlsError) (beBytes 2 a ++ 0#8 :: (beBytes 2 n.length ++ n)) 2 = .ok 0#8 := by
    intro a; exact idx_append (beBytes 2 a) _ _ (by simp)
  have h3 : ∀ a, sliceFrom (ε := TlsError) (beBytes 2 a ++ 0#8 :: (beBytes 2 n.length ++ n)) 3 = .ok (beBytes 2 n.length ++ n) := by
    intro a
    have := sliceFrom_ok (ε := TlsError) (beBytes 2 a ++ [0#8]) (beBytes 2 n.length ++ n) (n := 3) (by simp)
    simpa using this
  have h4 : ∀ a, slice (ε := TlsError) (beBytes 2 a ++ 0#8 :: (beBytes 2 n.length ++ n)) 5 (n.length + 5) = .ok n := by
    intro a
    have := slice_mid (ε := TlsError) (beBytes 2 a ++ [0#8] ++ beBytes 2 n.length) n [] (n := 5) (m := n.length + 5) (by simp) (by omega)
    simpa using this
  rw [h2]
  simp only [Res.ok_bind]
  rw [if_neg (by simp), h3]
  simp only [Res.ok_bind]
  rw [toU16_be _ (by omega), h4]
  rfl

/-! #### client extensions -/

/-- What the server makes of an RFC extension. -/
def extResult : ClientExt → Res TlsError (List ClientExtension)
  | .serverName n => if utf8Valid n then .ok [.serverName n] else .err .decodeError
  | .supportedVersions vs => .ok [.supportedVersion (decide (0x0304 ∈ vs))]
  | .keyShare l => if l = [] then .err .illegalParameter else do
      let es ← sharesResult l []
      .ok [.keyShare ⟨es⟩]
  | .other _ _ => .ok []

/-- What the server makes of a list of RFC extensions. -/
def extsResult : List ClientExt → List ClientExtension → Res TlsError (List ClientExtension)
  | [], acc => .ok acc
  | e :: es, acc => do
    let l ← extResult e
    extsResult es (acc ++ l)

theorem ext_step (e : ClientExt) (hv : e.Valid) (fuel : Nat) (rest : Bytes) (acc : List ClientExtension) (hl : e.body.length < 65536) :
    fromClientHelloLoop (fuel + 1) (e.bytes ++ rest) acc = (do
      let l ← extResult e
      fromClientHelloLoop fuel rest (acc ++ l)) := by
  have htyp : e.typ < 65536 := by
    cases e with
    | other t b => exact hv.1
    | _ => simp [ClientExt.typ]
  have hsplit : e.bytes ++ rest = beBytes 2 e.typ ++ (beBytes 2 e.body.length ++ (e.body ++ rest)) := by
    simp [ClientExt.bytes, vec2]
  rw [fromClientHelloLoop, hsplit]
  rw [if_neg (by rw [beBytes2]; simp)]
  rw [slice_pre (beBytes 2 e.typ) _ (by simp)]
  simp only [Res.ok_bind]
  rw [slice_mid (m := 4) (beBytes 2 e.typ) (beBytes 2 e.body.length) _ (by simp) (by simp)]
  simp only [Res.ok_bind]
  rw [toU16_be' _ htyp, toU16_be' _ hl]
  have hd4 : (beBytes 2 e.typ ++ (beBytes 2 e.body.length ++ (e.body ++ rest))).drop 4 = e.body ++ rest := by
    rw [← List.append_assoc, List.drop_left' (by simp)]
  have hdr : (beBytes 2 e.typ ++ (beBytes 2 e.body.length ++ (e.body ++ rest))).drop (4 + e.body.length) = rest := by
    rw [← List.drop_drop, hd4, List.drop_left]
  have hsl : slice (ε := TlsError) (beBytes 2 e.typ ++ (beBytes 2 e.body.length ++ (e.body ++ rest))) 4 (4 + e.body.length) = .ok e.body := by
    have := slice_mid (ε := TlsError) (beBytes 2 e.typ ++ beBytes 2 e.body.length) e.body rest (n := 4) (m := 4 + e.body.length) (by simp) rfl
    simpa using this
  rw [hd4, hdr, hsl]
  cases e with
  | serverName n =>
    have h0 : ExtensionType.new (ClientExt.serverName n).typ = some .serverName := rfl
    simp only [h0, extResult, Res.ok_bind]
    have hb : (ClientExt.serverName n).body = vec2 (0#8 :: vec2 n) := rfl
    rw [hb, name_parse n (by simp [ClientExt.body, vec2] at hl; omega)]
    split_ifs <;> rfl
  | supportedVersions vs =>
    have h0 : ExtensionType.new (ClientExt.supportedVersions vs).typ = some .supportedVersions := rfl
    simp only [h0, extResult, Res.ok_bind]
    have hb : (ClientExt.supportedVersions vs).body = beBytes 1 (2 * vs.length) ++ u16s vs := rfl
    rw [hb, versions_server vs rest hv.2.1 hv.2.2]
    rfl
  | keyShare l =>
    have h0 : ExtensionType.new (ClientExt.keyShare l).typ = some .keyShare := rfl
    simp only [h0, extResult, Res.ok_bind]
    have hb : (ClientExt.keyShare l).body = vec2 (l.map share).flatten := rfl
    rw [hb, keyShare_server l hv (by rw [hb] at hl; simp only [vec2, List.length_append, beBytes_length] at hl; omega)]
    split_ifs
    · rfl
    · rcases sharesResult l [] <;> rfl
  | other t b =>
    have h0 : ExtensionType.new (ClientExt.other t b).typ = none := by
      show ExtensionType.new t = none
      unfold ExtensionType.new
      rw [if_neg hv.2.1, if_neg hv.2.2.1, if_neg hv.2.2.2]
    simp only [h0, extResult, Res.ok_bind, List.append_nil]

theorem exts_loop (es : List ClientExt) : ∀ (fuel : Nat) (acc : List ClientExtension), (∀ e ∈ es, e.Valid) →
    (es.map ClientExt.bytes).flatten.length < 65536 → es.length ≤ fuel →
    fromClientHelloLoop fuel (es.map ClientExt.bytes).flatten acc = extsResult es acc := by
  induction es with
  | nil => intro fuel acc _ _ _; rcases fuel with _ | fuel <;> simp [fromClientHelloLoop, extsResult]
  | cons e es ih =>
    intro fuel acc hv hl hf
    rcases fuel with _ | fuel
    · simp at hf
    simp only [List.map_cons, List.flatten_cons, List.length_append] at hl ⊢
    have hb : e.body.length < 65536 := by
      have : e.bytes.length = 4 + e.body.length := by simp [ClientExt.bytes, vec2]; omega
      omega
    rw [ext_step e (hv e (by simp)) fuel _ acc hb, extsResult]
    rcases extResult e with l | _ | _
    · exact ih fuel _ (fun x hx => hv x (by simp [hx])) (by omega) (by simpa using hf)
    · rfl
    · rfl

theorem exts_parse (es : List ClientExt) (hv : ∀ e ∈ es, e.Valid) (hl : (es.map ClientExt.bytes).flatten.length < 65536) :
    ClientExtension.fromClientHello (es.map ClientExt.bytes).flatten = extsResult es [] := by
  unfold ClientExtension.fromClientHello
  refine exts_loop es _ [] hv hl ?_
  clear hv hl
  induction es with
  | nil => simp
  | cons e es ih =>
    have : e.bytes.length = 4 + e.body.length := by simp [ClientExt.bytes, vec2]; omega
    simp only [List.map_cons, List.flatten_cons, List.length_append, List.length_cons]; omega

/-! #### ClientHello -/

/-- The suites the library knows among code points. -/
def knownSuites (l : List Nat) : List CipherSuite :=
  l.filterMap fun c => match CipherSuite.new c with
    | .ok cs => some cs
    | _ => none

theorem suites_loop (l : List Nat) : ∀ (pre rest : Bytes) (acc : List CipherSuite), (∀ c ∈ l, c < 65536) →
    ClientHello.suitesLoop (pre ++ (u16s l ++ rest)) l.length pre.length acc = .ok (acc ++ knownSuites l) := by
  induction l with
  | nil => intro pre rest acc _; simp [ClientHello.suitesLoop, knownSuites]
  | cons c l ih =>
    intro pre rest acc hv
    have hu : u16s (c :: l) = beBytes 2 c ++ u16s l := by simp [u16s]
    have hp : pre ++ (u16s (c :: l) ++ rest) =
        pre ++ BitVec.ofNat 8 (c / 256) :: (BitVec.ofNat 8 c :: (u16s l ++ rest)) := by
      rw [hu, beBytes2]; simp
    have hp2 : pre ++ (u16s (c :: l) ++ rest) =
        (pre ++ [BitVec.ofNat 8 (c / 256)]) ++ BitVec.ofNat 8 c :: (u16s l ++ rest) := by
      rw [hp]; simp
    have hp3 : pre ++ (u16s (c :: l) ++ rest) = (pre ++ beBytes 2 c) ++ (u16s l ++ rest) := by
      rw [hu]; simp
    simp only [List.length_cons, ClientHello.suitesLoop]
    rw [show idx (ε := TlsError) (pre ++ (u16s (c :: l) ++ rest)) pre.length = .ok (BitVec.ofNat 8 (c / 256)) by
      rw [hp]; exact idx_append _ _ _ rfl]
    rw [show idx (ε := TlsError) (pre ++ (u16s (c :: l) ++ rest)) (pre.length + 1) = .ok (BitVec.ofNat 8 c) by
      rw [hp2]; exact idx_append _ _ _ (by simp)]
    simp only [Res.ok_bind]
    have hval : ((BitVec.ofNat 8 (c / 256)).toNat <<< 8) ||| (BitVec.ofNat 8 c).toNat = c := by
      rw [shl_or _ _ (BitVec.isLt _)]
      have := hv c (by simp)
      simp only [BitVec.toNat_ofNat]; omega
    rw [hval, hp3]
    have := ih (pre ++ beBytes 2 c) rest
    simp only [List.length_append, beBytes_length] at this
    rw [this _ (fun x hx => hv x (by simp [hx]))]
    unfold knownSuites
    rw [List.filterMap_cons]
    rcases CipherSuite.new c <;> simp

/-- Parsing the RFC layout of a ClientHello around an arbitrary extension block `eb`, with arbitrary bytes after it. -/
theorem client_fromRaw_raw (random sid : Bytes) (suites : List Nat) (eb tail : Bytes) (hr : random.length = 32)
    (hs : sid.length = 0 ∨ sid.length = 32) (hs2 : 2 * suites.length < 65536) (hs3 : ∀ c ∈ suites, c < 65536)
    (hel : eb.length < 65536) (hel1 : 4 ≤ 2 * suites.length + eb.length + tail.length) :
    ClientHello.fromRaw (3#8 :: 3#8 :: (random ++ (BitVec.ofNat 8 sid.length :: (sid ++ (beBytes 2 (u16s suites).length ++ (u16s suites ++
        (1#8 :: 0#8 :: (beBytes 2 eb.length ++ (eb ++ tail))))))))) = (do
      let exts ← ClientExtension.fromClientHello eb
      .ok ⟨random, knownSuites suites, if sid = [] then none else some sid, exts⟩) := by
  obtain ⟨buf, hbuf⟩ : ∃ buf, buf = 3#8 :: 3#8 :: (random ++ (BitVec.ofNat 8 sid.length :: (sid ++ (beBytes 2 (u16s suites).length ++ (u16s suites ++
        (1#8 :: 0#8 :: (beBytes 2 eb.length ++ (eb ++ tail)))))))) := ⟨_, rfl⟩
  rw [← hbuf]
  have hul := u16s_length suites
  have hblen : buf.length = 41 + sid.length + 2 * suites.length + eb.length + tail.length := by
    rw [hbuf]; simp [hul, hr]; omega
  unfold ClientHello.fromRaw
  rw [if_neg (by omega)]
  have i0 : idx (ε := TlsError) buf 0 = .ok 3#8 := by rw [hbuf]; rfl
  have i1 : idx (ε := TlsError) buf 1 = .ok 3#8 := by rw [hbuf]; rfl
  rw [i0, i1]
  simp only [Res.ok_bind]
  rw [if_neg (by decide)]
  have hrand : slice (ε := TlsError) buf 2 34 = .ok random := by
    rw [hbuf]; exact slice_mid [3#8, 3#8] random _ rfl (by omega)
  have i34 : idx (ε := TlsError) buf 34 = .ok (BitVec.ofNat 8 sid.length) := by
    rw [hbuf]
    have := idx_append (ε := TlsError) (3#8 :: 3#8 :: random) (BitVec.ofNat 8 sid.length) (sid ++ (beBytes 2 (u16s suites).length ++ (u16s suites ++
        (1#8 :: 0#8 :: (beBytes 2 eb.length ++ (eb ++ tail)))))) (n := 34) (by simp [hr])
    simpa using this
  rw [hrand, i34]
  simp only [Res.ok_bind]
  have hsid : ((if BitVec.ofNat 8 sid.length ≠ 0#8 then do
          let s ← slice buf 35 (35 + 32)
          .ok (35 + 32, some s)
        else .ok (35, none)) : Res TlsError (Nat × Option Bytes)) = .ok (35 + sid.length, if sid = [] then none else some sid) := by
    rcases hs with h0 | h32
    · have : sid = [] := List.eq_nil_of_length_eq_zero h0
      subst this
      rfl
    · rw [h32, if_pos (by decide)]
      have : slice (ε := TlsError) buf 35 (35 + 32) = .ok sid := by
        rw [hbuf]
        have := slice_mid (ε := TlsError) (3#8 :: 3#8 :: (random ++ [BitVec.ofNat 8 sid.length])) sid (beBytes 2 (u16s suites).length ++ (u16s suites ++
          (1#8 :: 0#8 :: (beBytes 2 eb.length ++ (eb ++ tail))))) (n := 35) (m := 35 + 32) (by simp [hr]) (by omega)
        simpa using this
      rw [this]
      have hne : sid ≠ [] := by rintro rfl; simp at h32
      rw [if_neg hne]
      rfl
  rw [hsid]
  simp only [Res.ok_bind]
  -- cipher suites
  obtain ⟨p1, hp1⟩ : ∃ p1, p1 = 3#8 :: 3#8 :: (random ++ (BitVec.ofNat 8 sid.length :: sid)) := ⟨_, rfl⟩
  have hp1l : p1.length = 35 + sid.length := by rw [hp1]; simp [hr]; omega
  have hb1 : buf = p1 ++ (beBytes 2 (u16s suites).length ++ (u16s suites ++ (1#8 :: 0#8 :: (beBytes 2 eb.length ++ (eb ++ tail))))) := by
    rw [hbuf, hp1]; simp
  have hc0 : idx (ε := TlsError) buf (35 + sid.length) = .ok (BitVec.ofNat 8 ((u16s suites).length / 256)) := by
    rw [hb1, beBytes2]; exact idx_append p1 _ _ hp1l.symm
  have hc1 : idx (ε := TlsError) buf (35 + sid.length + 1) = .ok (BitVec.ofNat 8 (u16s suites).length) := by
    rw [hb1, beBytes2]
    have := idx_append (ε := TlsError) (p1 ++ [BitVec.ofNat 8 ((u16s suites).length / 256)]) (BitVec.ofNat 8 (u16s suites).length)
      (u16s suites ++ (1#8 :: 0#8 :: (beBytes 2 eb.length ++ (eb ++ tail)))) (n := 35 + sid.length + 1) (by simp [hp1l])
    simpa using this
  rw [hc0, hc1]
  simp only [Res.ok_bind]
  have hslen : ((BitVec.ofNat 8 ((u16s suites).length / 256)).toNat <<< 8) ||| (BitVec.ofNat 8 (u16s suites).length).toNat =
      2 * suites.length := by
    rw [shl_or _ _ (BitVec.isLt _), hul]
    simp only [BitVec.toNat_ofNat]; omega
  rw [hslen, if_neg (by omega), show 2 * suites.length / 2 = suites.length by omega]
  have hsu : ClientHello.suitesLoop buf suites.length (35 + sid.length + 2) [] = .ok (knownSuites suites) := by
    have := suites_loop suites (p1 ++ beBytes 2 (u16s suites).length) (1#8 :: 0#8 :: (beBytes 2 eb.length ++ (eb ++ tail))) [] hs3
    rw [List.length_append, beBytes_length, hp1l, List.append_assoc, ← hb1, List.nil_append] at this
    exact this
  rw [hsu]
  simp only [Res.ok_bind]
  -- extensions
  obtain ⟨p2, hp2⟩ : ∃ p2, p2 = p1 ++ (beBytes 2 (u16s suites).length ++ (u16s suites ++ [1#8, 0#8])) := ⟨_, rfl⟩
  have hp2l : p2.length = 35 + sid.length + 2 + 2 * suites.length + 2 := by rw [hp2]; simp [hp1l, hul]; omega
  have hb2 : buf = p2 ++ (beBytes 2 eb.length ++ (eb ++ tail)) := by rw [hb1, hp2]; simp
  have he0 : idx (ε := TlsError) buf (35 + sid.length + 2 + 2 * suites.length + 2) = .ok (BitVec.ofNat 8 (eb.length / 256)) := by
    rw [hb2, beBytes2]; exact idx_append p2 _ _ hp2l.symm
  have he1 : idx (ε := TlsError) buf (35 + sid.length + 2 + 2 * suites.length + 2 + 1) = .ok (BitVec.ofNat 8 eb.length) := by
    rw [hb2, beBytes2]
    have := idx_append (ε := TlsError) (p2 ++ [BitVec.ofNat 8 (eb.length / 256)]) (BitVec.ofNat 8 eb.length) (eb ++ tail)
      (n := 35 + sid.length + 2 + 2 * suites.length + 2 + 1) (by simp [hp2l])
    simpa using this
  rw [he0, he1]
  simp only [Res.ok_bind]
  have helen : ((BitVec.ofNat 8 (eb.length / 256)).toNat <<< 8) ||| (BitVec.ofNat 8 eb.length).toNat = eb.length := by
    rw [shl_or _ _ (BitVec.isLt _)]
    simp only [BitVec.toNat_ofNat]; omega
  rw [helen]
  have hsl : slice (ε := TlsError) buf (35 + sid.length + 2 + 2 * suites.length + 2 + 2) (35 + sid.length + 2 + 2 * suites.length + 2 + 2 + eb.length) =
      .ok eb := by
    have := slice_mid (ε := TlsError) (p2 ++ beBytes 2 eb.length) eb tail (n := 35 + sid.length + 2 + 2 * suites.length + 2 + 2)
      (m := 35 + sid.length + 2 + 2 * suites.length + 2 + 2 + eb.length) (by simp [hp2l]) rfl
    rw [List.append_assoc, ← hb2] at this
    exact this
  rw [hsl]
  simp only [Res.ok_bind]

/-- Parsing an RFC ClientHello whose session id is empty or 32 bytes long. -/
theorem client_fromRaw (h : ClientHelloMsg) (hv : h.Valid) (hs : h.sessionId.length = 0 ∨ h.sessionId.length = 32) :
    ClientHello.fromRaw h.bytes = (do
      let exts ← extsResult h.exts []
      .ok ⟨h.random, knownSuites h.suites, if h.sessionId = [] then none else some h.sessionId, exts⟩) := by
  obtain ⟨random, sid, suites, exts⟩ := h
  obtain ⟨hr, _, ⟨hs1, hs2, hs3⟩, he, hel1, hel⟩ := hv
  simp only at hr hs1 hs2 hs3 he hel1 hel hs ⊢
  obtain ⟨eb, heb⟩ : ∃ eb, eb = (exts.map ClientExt.bytes).flatten := ⟨_, rfl⟩
  have hparse : ClientExtension.fromClientHello eb = extsResult exts [] := by rw [heb]; exact exts_parse exts he hel
  rw [← heb] at hel hel1
  have hbytes : (ClientHelloMsg.mk random sid suites exts).bytes =
      3#8 :: 3#8 :: (random ++ (BitVec.ofNat 8 sid.length :: (sid ++ (beBytes 2 (u16s suites).length ++ (u16s suites ++
        (1#8 :: 0#8 :: (beBytes 2 eb.length ++ (eb ++ [])))))))) := by
    unfold ClientHelloMsg.bytes vec2
    rw [← heb, beBytes1]
    simp only [List.append_assoc, List.cons_append, List.nil_append, List.append_nil]
    rfl
  rw [hbytes, client_fromRaw_raw random sid suites eb [] hr hs hs2 hs3 hel (by omega), hparse]

/-! #### ServerHello -/

/-- What the client makes of an RFC extension of a ServerHello. -/
def sextResult : ServerExt → Res TlsError (List ServerExtension)
  | .supportedVersions v => .ok [.supportedVersions (decide (v = 0x0304))]
  | .keyShare s =>
    match NamedGroup.new s.1 with
    | none => .err .illegalParameter
    | some g => .ok [.keyShare ⟨if s.2.length ≤ 3 then [] else [⟨g, s.2⟩]⟩]
  | .other _ _ => .ok []

/-- What the client makes of a list of RFC extensions. -/
def sextsResult : List ServerExt → List ServerExtension → Res TlsError (List ServerExtension)
  | [], acc => .ok acc
  | e :: es, acc => do
    let l ← sextResult e
    sextsResult es (acc ++ l)

theorem sext_step (e : ServerExt) (hv : e.Valid) (fuel : Nat) (rest : Bytes) (acc : List ServerExtension) (hl : e.body.length < 65536) :
    fromServerHelloLoop (fuel + 1) (e.bytes ++ rest) acc = (do
      let l ← sextResult e
      fromServerHelloLoop fuel rest (acc ++ l)) := by
  have htyp : e.typ < 65536 := by
    cases e with
    | other t b => exact hv.1
    | _ => simp [ServerExt.typ]
  have hsplit : e.bytes ++ rest = beBytes 2 e.typ ++ (beBytes 2 e.body.length ++ (e.body ++ rest)) := by
    simp [ServerExt.bytes, vec2]
  rw [fromServerHelloLoop, hsplit]
  rw [if_neg (by rw [beBytes2]; simp)]
  rw [slice_pre (beBytes 2 e.typ) _ (by simp)]
  simp only [Res.ok_bind]
  rw [slice_mid (m := 4) (beBytes 2 e.typ) (beBytes 2 e.body.length) _ (by simp) (by simp)]
  simp only [Res.ok_bind]
  rw [toU16_be' _ htyp, toU16_be' _ hl]
  have hd4 : (beBytes 2 e.typ ++ (beBytes 2 e.body.length ++ (e.body ++ rest))).drop 4 = e.body ++ rest := by
    rw [← List.append_assoc, List.drop_left' (by simp)]
  have hdr : (beBytes 2 e.typ ++ (beBytes 2 e.body.length ++ (e.body ++ rest))).drop (4 + e.body.length) = rest := by
    rw [← List.drop_drop, hd4, List.drop_left]
  have hsl : slice (ε := TlsError) (beBytes 2 e.typ ++ (beBytes 2 e.body.length ++ (e.body ++ rest))) 4 (4 + e.body.length) = .ok e.body := by
    have := slice_mid (ε := TlsError) (beBytes 2 e.typ ++ beBytes 2 e.body.length) e.body rest (n := 4) (m := 4 + e.body.length) (by simp) rfl
    simpa using this
  rw [hd4, hdr, hsl]
  cases e with
  | supportedVersions v =>
    have h0 : ExtensionType.new (ServerExt.supportedVersions v).typ = some .supportedVersions := rfl
    simp only [h0, sextResult, Res.ok_bind]
    have hb : (ServerExt.supportedVersions v).body = beBytes 2 v := rfl
    rw [hb, versions_client v rest hv]
    rfl
  | keyShare s =>
    have h0 : ExtensionType.new (ServerExt.keyShare s).typ = some .keyShare := rfl
    simp only [h0, sextResult, Res.ok_bind]
    have hb : (ServerExt.keyShare s).body = share s := rfl
    rw [hb, keyShare_client s hv.1 (by rw [hb, share_length] at hl; omega)]
    rcases NamedGroup.new s.1 <;> rfl
  | other t b =>
    have h0 : ExtensionType.new (ServerExt.other t b).typ = none := by
      show ExtensionType.new t = none
      unfold ExtensionType.new
      rw [if_neg hv.2.1, if_neg hv.2.2.1, if_neg hv.2.2.2]
    simp only [h0, sextResult, Res.ok_bind, List.append_nil]

theorem sexts_loop (es : List ServerExt) : ∀ (fuel : Nat) (acc : List ServerExtension), (∀ e ∈ es, e.Valid) →
    (es.map ServerExt.bytes).flatten.length < 65536 → es.length ≤ fuel →
    fromServerHelloLoop fuel (es.map ServerExt.bytes).flatten acc = sextsResult es acc := by
  induction es with
  | nil => intro fuel acc _ _ _; rcases fuel with _ | fuel <;> simp [fromServerHelloLoop, sextsResult]
  | cons e es ih =>
    intro fuel acc hv hl hf
    rcases fuel with _ | fuel
    · simp at hf
    simp only [List.map_cons, List.flatten_cons, List.length_append] at hl ⊢
    have hb : e.body.length < 65536 := by
      have : e.bytes.length = 4 + e.body.length := by simp [ServerExt.bytes, vec2]; omega
      omega
    rw [sext_step e (hv e (by simp)) fuel _ acc hb, sextsResult]
    rcases sextResult e with l | _ | _
    · exact ih fuel _ (fun x hx => hv x (by simp [hx])) (by omega) (by simpa using hf)
    · rfl
    · rfl

theorem sexts_parse (es : List ServerExt) (hv : ∀ e ∈ es, e.Valid) (hl : (es.map ServerExt.bytes).flatten.length < 65536) :
    ServerExtension.fromServerHello (es.map ServerExt.bytes).flatten = sextsResult es [] := by
  unfold ServerExtension.fromServerHello
  refine sexts_loop es _ [] hv hl ?_
  clear hv hl
  induction es with
  | nil => simp
  | cons e es ih =>
    have : e.bytes.length = 4 + e.body.length := by simp [ServerExt.bytes, vec2]; omega
    simp only [List.map_cons, List.flatten_cons, List.length_append, List.length_cons]; omega

/-- Parsing a ServerHello whose session id is empty or 32 bytes long, with any bytes in place of the extensions. -/
theorem server_fromRaw_raw (random sid : Bytes) (suite : Nat) (eb : Bytes) (hr : random.length = 32) (hs : sid.length = 0 ∨ sid.length = 32)
    (hsu : suite < 65536) (hel : eb.length < 65536) :
    ServerHello.fromRaw (beBytes 2 0x0303 ++ random ++ (beBytes 1 sid.length ++ sid) ++ beBytes 2 suite ++ [0#8] ++ vec2 eb) = (do
      let cs ← CipherSuite.new suite
      let exts ← ServerExtension.fromServerHello eb
      if ServerHello.tls13Supported exts = true then
        .ok ⟨random, if sid = [] then none else some sid, cs, exts⟩
      else .err .protocolVersion) := by
  have hbytes : beBytes 2 0x0303 ++ random ++ (beBytes 1 sid.length ++ sid) ++ beBytes 2 suite ++ [0#8] ++ vec2 eb =
      3#8 :: 3#8 :: (random ++ (BitVec.ofNat 8 sid.length :: (sid ++ (BitVec.ofNat 8 (suite / 256) :: BitVec.ofNat 8 suite ::
        0#8 :: (beBytes 2 eb.length ++ eb))))) := by
    unfold vec2
    rw [beBytes1, beBytes2 suite]
    simp only [List.append_assoc, List.cons_append, List.nil_append]
    rfl
  rw [hbytes]
  obtain ⟨buf, hbuf⟩ : ∃ buf, buf = 3#8 :: 3#8 :: (random ++ (BitVec.ofNat 8 sid.length :: (sid ++ (BitVec.ofNat 8 (suite / 256) :: BitVec.ofNat 8 suite ::
        0#8 :: (beBytes 2 eb.length ++ eb))))) := ⟨_, rfl⟩
  rw [← hbuf]
  have hblen : buf.length = 40 + sid.length + eb.length := by
    rw [hbuf]; simp [hr]; omega
  unfold ServerHello.fromRaw
  rw [if_neg (by omega)]
  have i0 : idx (ε := TlsError) buf 0 = .ok 3#8 := by rw [hbuf]; rfl
  have i1 : idx (ε := TlsError) buf 1 = .ok 3#8 := by rw [hbuf]; rfl
  rw [i0, i1]
  simp only [Res.ok_bind]
  rw [if_neg (by decide)]
  have hrand : slice (ε := TlsError) buf 2 34 = .ok random := by
    rw [hbuf]; exact slice_mid [3#8, 3#8] random _ rfl (by omega)
  obtain ⟨p1, hp1⟩ : ∃ p1, p1 = 3#8 :: 3#8 :: (random ++ (BitVec.ofNat 8 sid.length :: sid)) := ⟨_, rfl⟩
  have hp1l : p1.length = 35 + sid.length := by rw [hp1]; simp [hr]; omega
  have hb1 : buf = p1 ++ (BitVec.ofNat 8 (suite / 256) :: BitVec.ofNat 8 suite :: 0#8 :: (beBytes 2 eb.length ++ eb)) := by
    rw [hbuf, hp1]; simp
  have i34 : idx (ε := TlsError) buf 34 = .ok (BitVec.ofNat 8 sid.length) := by
    rw [hbuf]
    have := idx_append (ε := TlsError) (3#8 :: 3#8 :: random) (BitVec.ofNat 8 sid.length) (sid ++ (BitVec.ofNat 8 (suite / 256) :: BitVec.ofNat 8 suite ::
        0#8 :: (beBytes 2 eb.length ++ eb))) (n := 34) (by simp [hr])
    simpa using this
  rw [hrand, i34]
  simp only [Res.ok_bind]
  have hsid : ((if BitVec.ofNat 8 sid.length ≠ 0#8 then do
          let s ← slice buf 35 (35 + 32)
          .ok (35 + 32, some s)
        else .ok (35, none)) : Res TlsError (Nat × Option Bytes)) = .ok (35 + sid.length, if sid = [] then none else some sid) := by
    rcases hs with h0 | h32
    · have : sid = [] := List.eq_nil_of_length_eq_zero h0
      subst this
      rfl
    · rw [h32, if_pos (by decide)]
      have : slice (ε := TlsError) buf 35 (35 + 32) = .ok sid := by
        rw [hbuf]
        have := slice_mid (ε := TlsError) (3#8 :: 3#8 :: (random ++ [BitVec.ofNat 8 sid.length])) sid
          (BitVec.ofNat 8 (suite / 256) :: BitVec.ofNat 8 suite :: 0#8 :: (beBytes 2 eb.length ++ eb)) (n := 35) (m := 35 + 32) (by simp [hr]) (by omega)
        simpa using this
      rw [this]
      have hne : sid ≠ [] := by rintro rfl; simp at h32
      rw [if_neg hne]
      rfl
  rw [hsid]
  simp only [Res.ok_bind]
  have hc0 : idx (ε := TlsError) buf (35 + sid.length) = .ok (BitVec.ofNat 8 (suite / 256)) := by
    rw [hb1]; exact idx_append p1 _ _ hp1l.symm
  have hc1 : idx (ε := TlsError) buf (35 + sid.length + 1) = .ok (BitVec.ofNat 8 suite) := by
    rw [hb1]
    have := idx_append (ε := TlsError) (p1 ++ [BitVec.ofNat 8 (suite / 256)]) (BitVec.ofNat 8 suite)
      (0#8 :: (beBytes 2 eb.length ++ eb)) (n := 35 + sid.length + 1) (by simp [hp1l])
    simpa using this
  rw [hc0, hc1]
  simp only [Res.ok_bind]
  have hval : ((BitVec.ofNat 8 (suite / 256)).toNat <<< 8) ||| (BitVec.ofNat 8 suite).toNat = suite := by
    rw [shl_or _ _ (BitVec.isLt _)]
    simp only [BitVec.toNat_ofNat]; omega
  rw [hval]
  obtain ⟨p2, hp2⟩ : ∃ p2, p2 = p1 ++ [BitVec.ofNat 8 (suite / 256), BitVec.ofNat 8 suite, 0#8] := ⟨_, rfl⟩
  have hp2l : p2.length = 35 + sid.length + 3 := by rw [hp2]; simp [hp1l]
  have hb2 : buf = p2 ++ (beBytes 2 eb.length ++ eb) := by rw [hb1, hp2]; simp
  have he0 : idx (ε := TlsError) buf (35 + sid.length + 3) = .ok (BitVec.ofNat 8 (eb.length / 256)) := by
    rw [hb2, beBytes2]; exact idx_append p2 _ _ hp2l.symm
  have he1 : idx (ε := TlsError) buf (35 + sid.length + 3 + 1) = .ok (BitVec.ofNat 8 eb.length) := by
    rw [hb2, beBytes2]
    have := idx_append (ε := TlsError) (p2 ++ [BitVec.ofNat 8 (eb.length / 256)]) (BitVec.ofNat 8 eb.length) eb
      (n := 35 + sid.length + 3 + 1) (by simp [hp2l])
    simpa using this
  rw [he0, he1]
  simp only [Res.ok_bind]
  have helen : ((BitVec.ofNat 8 (eb.length / 256)).toNat <<< 8) ||| (BitVec.ofNat 8 eb.length).toNat = eb.length := by
    rw [shl_or _ _ (BitVec.isLt _)]
    simp only [BitVec.toNat_ofNat]; omega
  rw [helen]
  have hsl : slice (ε := TlsError) buf (35 + sid.length + 3 + 2) (35 + sid.length + 3 + 2 + eb.length) = .ok eb := by
    have := slice_mid (ε := TlsError) (p2 ++ beBytes 2 eb.length) eb [] (n := 35 + sid.length + 3 + 2)
      (m := 35 + sid.length + 3 + 2 + eb.length) (by simp [hp2l]) rfl
    rw [List.append_nil, List.append_assoc, ← hb2] at this
    exact this
  rw [hsl]
  simp only [Res.ok_bind]

/-- Parsing an RFC ServerHello whose session id is empty or 32 bytes long. -/
theorem server_fromRaw (h : ServerHelloMsg) (hv : h.Valid) (hs : h.sessionId.length = 0 ∨ h.sessionId.length = 32) :
    ServerHello.fromRaw h.bytes = (do
      let cs ← CipherSuite.new h.suite
      let exts ← sextsResult h.exts []
      if ServerHello.tls13Supported exts = true then
        .ok ⟨h.random, if h.sessionId = [] then none else some h.sessionId, cs, exts⟩
      else .err .protocolVersion) := by
  unfold ServerHelloMsg.bytes
  rw [server_fromRaw_raw h.random h.sessionId h.suite _ hv.random hs hv.suite hv.len, sexts_parse h.exts hv.exts hv.len]

end ATLS.HelloProof
