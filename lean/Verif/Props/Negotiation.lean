import Verif.Model.ServerHello
import Verif.Props.Hello
import Verif.Props.X25519
/-
C36 (reachability), C38-C41: what the server answers to a ClientHello.
-/
namespace ATLS
open ATLS.Model ATLS.Spec

namespace NegProof
open ServerHello

theorem slice_not_err {ε : Type} (b : Bytes) (i j : Nat) (e : ε) : (slice b i j : Res ε Bytes) ≠ .err e := by
  unfold slice
  split_ifs <;> simp

theorem read_not_err {ε : Type} (reads : List Bytes) (e : ε) : (readFromUrandom reads : Res ε _) ≠ .err e := by
  cases reads with
  | nil => simp [readFromUrandom]
  | cons b rest => unfold readFromUrandom; simp only []; split_ifs <;> simp

theorem bind_not_err {ε α β : Type} {x : Res ε α} {f : α → Res ε β} {e : ε} (h1 : x ≠ .err e) (h2 : ∀ a, f a ≠ .err e) : (x >>= f) ≠ .err e := by
  cases x with
  | ok a => exact h2 a
  | err e' => intro h; exact h1 (by rw [Res.err_bind] at h; cases h; rfl)
  | panic => intro h; cases h

/-- The generators never report an error: they answer or panic. -/
theorem between_not_err {ε : Type} (rng : Rng) (a b : Nat) (e : ε) : (rng.between a b : Res ε (Int × Rng)) ≠ .err e := by
  cases rng with
  | simple seed =>
    unfold Rng.between
    refine bind_not_err ?_ ?_
    · unfold SimpleRng.next
      exact bind_not_err (by
        unfold ibigTo32bytes
        exact bind_not_err (by unfold ibigToVec; split_ifs <;> simp) (by simp)) (by simp)
    · intro p
      simp only []
      split_ifs <;> simp
  | urandom reads =>
    unfold Rng.between
    refine bind_not_err ?_ ?_
    · unfold URandomRng.next
      refine bind_not_err (read_not_err _ _) fun p => bind_not_err (slice_not_err _ _ _ _) fun s => bind_not_err ?_ fun t =>
        bind_not_err (slice_not_err _ _ _ _) fun d => by simp
      unfold toU64Le
      exact bind_not_err (slice_not_err _ _ _ _) (by simp)
    · intro p
      simp only []
      split_ifs <;> simp

theorem bytes_not_err {ε : Type} (rng : Rng) (n : Nat) (e : ε) : (rng.bytes n : Res ε (Bytes × Rng)) ≠ .err e := by
  cases rng with
  | simple seed => unfold Rng.bytes; simp only []; split_ifs <;> simp
  | urandom reads =>
    unfold Rng.bytes
    exact bind_not_err (read_not_err _ _) fun p => bind_not_err (slice_not_err _ _ _ _) fun s => by simp

/-- A value of `between(1, 32)` lies in `[256, 2^256)`. -/
theorem between_range {ε : Type} {rng rng' : Rng} {v : Int} (h : (rng.between 1 32 : Res ε (Int × Rng)) = .ok (v, rng')) :
    256 ≤ v ∧ v < 2 ^ 256 := by
  have key : ∀ n : Nat, 256 ≤ ((n : Int).tmod (2 ^ (32 * 8) - 2 ^ (1 * 8)) + 2 ^ (1 * 8)) ∧
      ((n : Int).tmod (2 ^ (32 * 8) - 2 ^ (1 * 8)) + 2 ^ (1 * 8)) < 2 ^ 256 := by
    intro n
    obtain ⟨m, hm⟩ : ∃ m : Int, m = 2 ^ (32 * 8) - 2 ^ (1 * 8) := ⟨_, rfl⟩
    have hpos : 0 < m := by rw [hm]; norm_num
    rw [← hm]
    have h1 := Int.tmod_nonneg m (Int.natCast_nonneg n)
    have h2 := Int.tmod_lt_of_pos (n : Int) hpos
    have h3 : (2 : Int) ^ (1 * 8) = 256 := by norm_num
    have h4 : (2 : Int) ^ 256 = m + 256 := by rw [hm]; norm_num
    rw [h3, h4]
    constructor <;> linarith
  unfold Rng.between at h
  cases rng with
  | simple seed =>
    simp only [] at h
    obtain ⟨x, _, h2⟩ := Res.bind_eq_ok.1 h
    rw [if_neg (by norm_num)] at h2
    cases h2
    exact key _
  | urandom reads =>
    simp only [] at h
    obtain ⟨x, _, h2⟩ := Res.bind_eq_ok.1 h
    rw [if_neg (by norm_num)] at h2
    cases h2
    exact key _

/-- The step of the key share loop on an X25519 entry. -/
theorem loop_x25519 (o : Bytes) (rest : List KeyShareEntry) (s : Negotiation) :
    keyShareLoop (⟨.x25519, o⟩ :: rest) s = (s.rng.between 1 32 : Res TlsError (Int × Rng)) >>= fun p =>
      .ok ⟨s.extensions ++ [.keyShare ⟨[⟨.x25519, (publicShare p.1).reverse⟩]⟩], some ⟨.curve25519, p.1⟩, some .x25519, p.2⟩ := by
  rw [keyShareLoop]
  cases hb : (s.rng.between 1 32 : Res TlsError (Int × Rng)) with
  | err e => rfl
  | panic => rfl
  | ok p =>
    obtain ⟨v, rng'⟩ := p
    have hr := between_range hb
    have hk := keyShareOf_eq (n := v) (by linarith [hr.1]) hr.2
    simp only [Res.ok_bind, hk]

/-- What the server has collected: shares it answered, each with its key; the last key is kept. -/
structure Inv (s : Negotiation) : Prop where
  exts : ∃ shares : List Bytes, s.extensions = shares.map (fun x => ServerExtension.keyShare ⟨[⟨.x25519, x⟩]⟩) ∧ ∀ x ∈ shares, x.length = 32
  group : s.namedGroup.isNone ↔ s.privateKey.isNone
  key : ∀ k, s.privateKey = some k → k.curve = .curve25519 ∧ 256 ≤ k.secret ∧ k.secret < 2 ^ 256
  last : ∀ k, s.privateKey = some k → s.extensions.getLast? = some (.keyShare ⟨[⟨.x25519, (publicShare k.secret).reverse⟩]⟩)

theorem inv_start (rng : Rng) : Inv ⟨[], none, none, rng⟩ :=
  ⟨⟨[], rfl, by simp⟩, by simp, by simp, by simp⟩

theorem inv_loop : ∀ (l : List KeyShareEntry) (s s' : Negotiation), Inv s → keyShareLoop l s = .ok s' → Inv s'
  | [], s, s', hi, h => by cases h; exact hi
  | k :: rest, s, s', hi, h => by
    obtain ⟨g, o⟩ := k
    by_cases hx : g = .x25519
    · subst hx
      rw [loop_x25519] at h
      obtain ⟨⟨v, rng'⟩, hb, h2⟩ := Res.bind_eq_ok.1 h
      cases h2
      obtain ⟨shares, he, hl⟩ := hi.exts
      refine ⟨⟨shares ++ [(publicShare v).reverse], ?_, ?_⟩, by simp, ?_, ?_⟩
      · rw [he]; simp
      · intro x hx
        rcases List.mem_append.1 hx with hx | hx
        · exact hl x hx
        · rw [List.mem_singleton.1 hx, List.length_reverse, publicShare_length]
      · intro k hk
        cases hk
        exact ⟨rfl, between_range hb⟩
      · intro k hk
        cases hk
        simp
    · by_cases hp : g = .secp256r1
      · subst hp; rw [keyShareLoop] at h; cases h
      · have : keyShareLoop (⟨g, o⟩ :: rest) s = keyShareLoop rest s := by
          rw [keyShareLoop]
          cases g <;> first | rfl | exact absurd rfl hx | exact absurd rfl hp
        rw [this] at h
        exact inv_loop rest s s' hi h

theorem inv_ext (name : Option Bytes) (e : ClientExtension) (s s' : Negotiation) (hi : Inv s) (h : onExtension name s e = .ok s') : Inv s' := by
  cases e with
  | supportedVersion b => simp only [onExtension] at h; split_ifs at h; cases h; exact hi
  | supportedGroups g => cases h; exact hi
  | keyShare k => exact inv_loop _ _ _ hi h
  | serverName n =>
    cases name with
    | none => cases h; exact hi
    | some m => simp only [onExtension] at h; split_ifs at h; cases h; exact hi
  | signatureAlgorithms l => simp only [onExtension] at h; split_ifs at h; cases h; exact hi

theorem inv_fold (name : Option Bytes) : ∀ (l : List ClientExtension) (s s' : Negotiation), Inv s →
    l.foldlM (onExtension name) s = .ok s' → Inv s'
  | [], s, s', hi, h => by cases h; exact hi
  | e :: l, s, s', hi, h => by
    rw [List.foldlM_cons] at h
    obtain ⟨t, h1, h2⟩ := Res.bind_eq_ok.1 h
    exact inv_fold name l t s' (inv_ext name e s t hi h1) h2

/-- `from_client_hello` when it succeeds. -/
theorem ok_iff {ch : ClientHello} {rng : Rng} {name : Option Bytes} {sh : ServerHello} {pk : PrivateKey} {rng' : Rng}
    (h : fromClientHello ch rng name = .ok (sh, pk, rng')) :
    ∃ random rng1 s cs, (rng.bytes 32 : Res TlsError (Bytes × Rng)) = .ok (random, rng1) ∧ random.length = 32 ∧
      ch.extensions.foldlM (onExtension name) ⟨[], none, none, rng1⟩ = .ok s ∧ s.namedGroup.isNone = false ∧
      selectSuite ch.cipherSuites none = some cs ∧ s.privateKey = some pk ∧ rng' = s.rng ∧
      sh = ⟨random, ch.legacySessionIdEcho, cs, s.extensions ++ [.supportedVersions true]⟩ := by
  unfold fromClientHello at h
  obtain ⟨⟨random, rng1⟩, h1, h⟩ := Res.bind_eq_ok.1 h
  simp only [] at h
  split_ifs at h with h2
  obtain ⟨s, h3, h⟩ := Res.bind_eq_ok.1 h
  split_ifs at h with h4
  obtain ⟨cs, h5, h⟩ := Res.bind_eq_ok.1 h
  obtain ⟨k, h6, h⟩ := Res.bind_eq_ok.1 h
  have h5' : selectSuite ch.cipherSuites none = some cs := by
    cases hs : selectSuite ch.cipherSuites none with
    | none => rw [hs] at h5; cases h5
    | some c => rw [hs] at h5; cases h5; rfl
  have h6' : s.privateKey = some k := by
    cases hs : s.privateKey with
    | none => rw [hs] at h6; cases h6
    | some c => rw [hs] at h6; cases h6; rfl
  cases h
  exact ⟨random, rng1, s, cs, h1, by simpa using h2, h3, by cases hg : s.namedGroup <;> simp_all, h5', h6', rfl, rfl⟩

theorem select_mem : ∀ (l : List CipherSuite) (acc : Option CipherSuite) (cs : CipherSuite), selectSuite l acc = some cs →
    (cs ∈ l ∧ cs ≠ .emptyRenegotiationInfoScsv) ∨ acc = some cs
  | [], acc, cs, h => Or.inr h
  | c :: l, acc, cs, h => by
    cases c with
    | emptyRenegotiationInfoScsv =>
      rcases select_mem l acc cs h with ⟨h1, h2⟩ | h1
      · exact Or.inl ⟨List.mem_cons_of_mem _ h1, h2⟩
      · exact Or.inr h1
    | chacha20Poly1305Sha256 => cases h; exact Or.inl ⟨by simp, by decide⟩
    | aes256GcmSha384 =>
      rcases select_mem l _ cs h with ⟨h1, h2⟩ | h1
      · exact Or.inl ⟨List.mem_cons_of_mem _ h1, h2⟩
      · cases h1; exact Or.inl ⟨by simp, by decide⟩
    | aes128GcmSha256 =>
      rcases select_mem l _ cs h with ⟨h1, h2⟩ | h1
      · exact Or.inl ⟨List.mem_cons_of_mem _ h1, h2⟩
      · cases h1; exact Or.inl ⟨by simp, by decide⟩

theorem select_chacha : ∀ (l : List CipherSuite) (acc : Option CipherSuite), .chacha20Poly1305Sha256 ∈ l →
    selectSuite l acc = some .chacha20Poly1305Sha256
  | [], acc, h => by simp at h
  | c :: l, acc, h => by
    cases c with
    | chacha20Poly1305Sha256 => rfl
    | emptyRenegotiationInfoScsv => exact select_chacha l acc (by simpa using h)
    | aes256GcmSha384 => exact select_chacha l _ (by simpa using h)
    | aes128GcmSha256 => exact select_chacha l _ (by simpa using h)

theorem select_some : ∀ (l : List CipherSuite) (c : CipherSuite), ∃ cs, selectSuite l (some c) = some cs
  | [], c => ⟨c, rfl⟩
  | d :: l, c => by
    cases d with
    | chacha20Poly1305Sha256 => exact ⟨_, rfl⟩
    | emptyRenegotiationInfoScsv => exact select_some l c
    | aes256GcmSha384 => exact select_some l _
    | aes128GcmSha256 => exact select_some l _

theorem select_none : ∀ (l : List CipherSuite), selectSuite l none = none ↔ ∀ c ∈ l, c = .emptyRenegotiationInfoScsv
  | [] => by simp [selectSuite]
  | d :: l => by
    cases d with
    | chacha20Poly1305Sha256 => simp [selectSuite]
    | emptyRenegotiationInfoScsv => rw [selectSuite, select_none l]; simp
    | aes256GcmSha384 =>
      obtain ⟨cs, h⟩ := select_some l .aes256GcmSha384
      simp [selectSuite, h]
    | aes128GcmSha256 =>
      obtain ⟨cs, h⟩ := select_some l .aes128GcmSha256
      simp [selectSuite, h]

/-- The outcome without the suites: everything but the choice of the suite. -/
theorem suites_only (ch : ClientHello) (rng : Rng) (name : Option Bytes) (suites : List CipherSuite) (sh : ServerHello) (pk : PrivateKey)
    (rng' : Rng) (h : fromClientHello { ch with cipherSuites := suites } rng name = .ok (sh, pk, rng')) :
    fromClientHello ch rng name = (Res.okOr TlsError.handshakeFailure (selectSuite ch.cipherSuites none)) >>= fun cs =>
      .ok ({ sh with cipherSuite := cs }, pk, rng') := by
  obtain ⟨random, rng1, s, cs, h1, h2, h3, h4, h5, h6, rfl, rfl⟩ := ok_iff h
  unfold fromClientHello
  simp only [] at h3
  simp only [h1, Res.ok_bind]
  rw [if_neg (by simpa using h2), h3]
  simp only [Res.ok_bind]
  rw [if_neg (by simp [h4])]
  cases selectSuite ch.cipherSuites none with
  | none => rfl
  | some c => simp only [Res.okOr, Res.ok_bind, h6]

end NegProof
open NegProof ServerHello

/-! ### C38 -/

/-- C38, the answer: the suite is one the client offered, it is one of the three TLS 1.3 suites, and it is ChaCha20-Poly1305 whenever the client
offered that. -/
theorem C38_choice (ch : ClientHello) (rng : Rng) (name : Option Bytes) (sh : ServerHello) (pk : PrivateKey) (rng' : Rng)
    (h : fromClientHello ch rng name = .ok (sh, pk, rng')) :
    sh.cipherSuite ∈ ch.cipherSuites ∧
      sh.cipherSuite ∈ [CipherSuite.aes128GcmSha256, .aes256GcmSha384, .chacha20Poly1305Sha256] ∧
      (.chacha20Poly1305Sha256 ∈ ch.cipherSuites → sh.cipherSuite = .chacha20Poly1305Sha256) := by
  obtain ⟨random, rng1, s, cs, _, _, _, _, h5, _, _, rfl⟩ := ok_iff h
  rcases select_mem _ _ _ h5 with ⟨h1, h2⟩ | h1
  · refine ⟨h1, ?_, ?_⟩
    · cases cs <;> simp at h2 ⊢
    · intro hc
      rw [select_chacha _ _ hc] at h5
      cases h5; rfl
  · cases h1

/-- C38, the refusal: for a hello that is acceptable with some other list of suites, the server refuses with HandshakeFailure exactly when none of
the three TLS 1.3 suites is offered, and answers otherwise. -/
theorem C38_refusal (ch : ClientHello) (rng : Rng) (name : Option Bytes) (suites : List CipherSuite) (r : ServerHello × PrivateKey × Rng)
    (h : fromClientHello { ch with cipherSuites := suites } rng name = .ok r) :
    (fromClientHello ch rng name = .err .handshakeFailure ↔
      ∀ c ∈ [CipherSuite.aes128GcmSha256, .aes256GcmSha384, .chacha20Poly1305Sha256], c ∉ ch.cipherSuites) ∧
    (fromClientHello ch rng name ≠ .err .handshakeFailure → ∃ r', fromClientHello ch rng name = .ok r') := by
  obtain ⟨sh, pk, rng'⟩ := r
  have hs := suites_only ch rng name suites sh pk rng' h
  have hiff : selectSuite ch.cipherSuites none = none ↔
      ∀ c ∈ [CipherSuite.aes128GcmSha256, .aes256GcmSha384, .chacha20Poly1305Sha256], c ∉ ch.cipherSuites := by
    rw [select_none]
    constructor
    · intro hall c hc hm
      have := hall c hm
      subst this
      simp at hc
    · intro hno c hc
      cases c with
      | emptyRenegotiationInfoScsv => rfl
      | aes128GcmSha256 => exact absurd hc (hno _ (by simp))
      | aes256GcmSha384 => exact absurd hc (hno _ (by simp))
      | chacha20Poly1305Sha256 => exact absurd hc (hno _ (by simp))
  rw [← hiff]
  cases hsel : selectSuite ch.cipherSuites none with
  | none => rw [hsel] at hs; simp [hs, Res.okOr]
  | some c => rw [hsel] at hs; simp [hs, Res.okOr]

/-- A hello as the library's own client sends it, and a generator. -/
def exampleHello : ClientHello :=
  ⟨zeros 32, [.aes256GcmSha384, .aes128GcmSha256, .chacha20Poly1305Sha256], none, [.keyShare ⟨[⟨.x25519, zeros 32⟩]⟩, .supportedVersion true,
    .serverName [97#8]]⟩
/-- Two reads of `/dev/urandom`. -/
def exampleRng : Rng := .urandom [zeros 100, zeros 100]

theorem exampleRng_between : ((Rng.urandom [zeros 100]).between 1 32 : Res TlsError (Int × Rng)) = .ok (256, .urandom []) := by decide +kernel

namespace NegProof

/-- A hello with one X25519 share in front and otherwise inert extensions is accepted. -/
theorem accept_of {crandom sid random : _} {rng rng1 rng2 : Rng} {v : Int} (suites : List CipherSuite) (cs : CipherSuite)
    (h : selectSuite suites none = some cs) (name : Option Bytes) (share : Bytes) (exts : List ClientExtension)
    (he : ∀ s, exts.foldlM (onExtension name) s = .ok s) (h1 : (rng.bytes 32 : Res TlsError (Bytes × Rng)) = .ok (random, rng1))
    (hr : random.length = 32) (h2 : (rng1.between 1 32 : Res TlsError (Int × Rng)) = .ok (v, rng2)) :
    fromClientHello ⟨crandom, suites, sid, .keyShare ⟨[⟨.x25519, share⟩]⟩ :: exts⟩ rng name =
      .ok (⟨random, sid, cs, [.keyShare ⟨[⟨.x25519, (publicShare v).reverse⟩]⟩, .supportedVersions true]⟩, ⟨.curve25519, v⟩, rng2) := by
  unfold fromClientHello
  simp only [h1, Res.ok_bind]
  rw [if_neg (by simpa using hr), List.foldlM_cons]
  have h3 : onExtension name ⟨[], none, none, rng1⟩ (.keyShare ⟨[⟨.x25519, share⟩]⟩) =
      .ok ⟨[.keyShare ⟨[⟨.x25519, (publicShare v).reverse⟩]⟩], some ⟨.curve25519, v⟩, some .x25519, rng2⟩ := by
    unfold onExtension
    simp only []
    rw [loop_x25519]
    simp only [h2, Res.ok_bind, List.nil_append]
  rw [h3, Res.ok_bind, he, Res.ok_bind]
  rw [if_neg (by simp)]
  simp only [Res.ok_bind, h, Res.okOr, List.singleton_append]

/-- The example hello is accepted. -/
theorem example_ok (suites : List CipherSuite) (cs : CipherSuite) (h : selectSuite suites none = some cs) (exts : List ClientExtension)
    (he : ∀ s, exts.foldlM (onExtension none) s = .ok s) :
    fromClientHello ⟨zeros 32, suites, none, .keyShare ⟨[⟨.x25519, zeros 32⟩]⟩ :: exts⟩ exampleRng none =
      .ok (⟨zeros 32, none, cs, [.keyShare ⟨[⟨.x25519, (publicShare 256).reverse⟩]⟩, .supportedVersions true]⟩, ⟨.curve25519, 256⟩, .urandom []) :=
  accept_of suites cs h none (zeros 32) exts he (by decide +kernel) (by decide) exampleRng_between

end NegProof

/-- The theorems apply: the example hello is answered with ChaCha20-Poly1305, although it is the client's last choice. -/
example : ∃ sh pk rng', fromClientHello exampleHello exampleRng none = .ok (sh, pk, rng') ∧ sh.cipherSuite = .chacha20Poly1305Sha256 :=
  ⟨_, _, _, example_ok _ .chacha20Poly1305Sha256 rfl [.supportedVersion true, .serverName [97#8]] (fun _ => rfl), rfl⟩

/-! ### C39 -/

/-- C39 in full: the server answers only clients that offer TLS 1.3 in supported_versions. -/
def C39_statement : Prop :=
  ∀ (ch : ClientHello) (rng : Rng) (name : Option Bytes) (r : ServerHello × PrivateKey × Rng),
    fromClientHello ch rng name = .ok r → .supportedVersion true ∈ ch.extensions

/-- C39, proved part: a client that sends supported_versions without TLS 1.3 (in any such extension) is never answered. Missing: a client that
sends no supported_versions at all is answered (`C39_false`). -/
theorem C39_versions_partial (ch : ClientHello) (rng : Rng) (name : Option Bytes) (r : ServerHello × PrivateKey × Rng)
    (h : fromClientHello ch rng name = .ok r) : .supportedVersion false ∉ ch.extensions := by
  obtain ⟨sh, pk, rng'⟩ := r
  obtain ⟨random, rng1, s, cs, _, _, h3, _⟩ := ok_iff h
  intro hm
  have key : ∀ (l : List ClientExtension) (s s' : Negotiation), .supportedVersion false ∈ l → l.foldlM (onExtension name) s = .ok s' → False := by
    intro l
    induction l with
    | nil => intro s s' hm; simp at hm
    | cons e l ih =>
      intro s s' hm hf
      rw [List.foldlM_cons] at hf
      obtain ⟨t, g1, g2⟩ := Res.bind_eq_ok.1 hf
      rcases List.mem_cons.1 hm with rfl | hm
      · simp [onExtension] at g1
      · exact ih t s' hm g2
  exact key _ _ _ hm h3

/-- C39 is false: a TLS 1.2 style hello without supported_versions, with a key share, is answered. -/
theorem C39_false : ¬ C39_statement := by
  intro h
  have := h _ exampleRng none _ (example_ok [.aes128GcmSha256] _ rfl [] (fun _ => rfl))
  simp at this

/-! ### C40 -/

/-- C40: for a hello that is acceptable to a server without a configured name, configuring the name `n` changes the answer exactly when the hello
names a different host, and then it is a refusal with UnrecognizedName. -/
theorem C40_server_name (ch : ClientHello) (rng : Rng) (n : Bytes) (r : ServerHello × PrivateKey × Rng)
    (h : fromClientHello ch rng none = .ok r) :
    ((∃ m, .serverName m ∈ ch.extensions ∧ m ≠ n) → fromClientHello ch rng (some n) = .err .unrecognizedName) ∧
    ((∀ m, .serverName m ∈ ch.extensions → m = n) → fromClientHello ch rng (some n) = .ok r) := by
  obtain ⟨sh, pk, rng'⟩ := r
  obtain ⟨random, rng1, s, cs, h1, h2, h3, h4, h5, h6, rfl, rfl⟩ := ok_iff h
  have key : ∀ (l : List ClientExtension) (s s' : Negotiation), l.foldlM (onExtension none) s = .ok s' →
      ((∃ m, .serverName m ∈ l ∧ m ≠ n) → l.foldlM (onExtension (some n)) s = .err .unrecognizedName) ∧
      ((∀ m, .serverName m ∈ l → m = n) → l.foldlM (onExtension (some n)) s = .ok s') := by
    intro l
    induction l with
    | nil => intro s s' hf; exact ⟨by rintro ⟨m, hm, _⟩; simp at hm, fun _ => hf⟩
    | cons e l ih =>
      intro s s' hf
      rw [List.foldlM_cons] at hf
      obtain ⟨t, g1, g2⟩ := Res.bind_eq_ok.1 hf
      obtain ⟨i1, i2⟩ := ih t s' g2
      rw [List.foldlM_cons]
      by_cases hs : ∃ m, e = .serverName m
      · obtain ⟨m, rfl⟩ := hs
        cases g1
        by_cases hmn : n = m
        · have e1 : onExtension (some n) s (.serverName m) = .ok s := by simp [onExtension, hmn]
          rw [e1, Res.ok_bind]
          refine ⟨?_, ?_⟩
          · rintro ⟨m', hm', hne⟩
            rcases List.mem_cons.1 hm' with h' | h'
            · cases h'; exact absurd hmn.symm hne
            · exact i1 ⟨m', h', hne⟩
          · intro hall
            exact i2 (fun m' hm' => hall m' (List.mem_cons_of_mem _ hm'))
        · have e1 : onExtension (some n) s (.serverName m) = .err .unrecognizedName := by simp [onExtension, hmn]
          rw [e1, Res.err_bind]
          exact ⟨fun _ => rfl, fun hall => absurd (hall m (by simp)).symm hmn⟩
      · have e1 : onExtension (some n) s e = .ok t := by
          rw [← g1]
          cases e with
          | serverName m => exact absurd ⟨m, rfl⟩ hs
          | _ => rfl
        rw [e1, Res.ok_bind]
        refine ⟨?_, ?_⟩
        · rintro ⟨m', hm', hne⟩
          rcases List.mem_cons.1 hm' with h' | h'
          · exact absurd ⟨m', h'.symm⟩ hs
          · exact i1 ⟨m', h', hne⟩
        · intro hall
          exact i2 (fun m' hm' => hall m' (List.mem_cons_of_mem _ hm'))
  obtain ⟨k1, k2⟩ := key _ _ _ h3
  constructor
  · intro hex
    unfold fromClientHello
    simp only [h1, Res.ok_bind]
    rw [if_neg (by simpa using h2), k1 hex]
    rfl
  · intro hall
    unfold fromClientHello
    simp only [h1, Res.ok_bind]
    rw [if_neg (by simpa using h2), k2 hall]
    simp only [Res.ok_bind]
    rw [if_neg (by simp [h4])]
    simp only [h5, h6, Res.okOr, Res.ok_bind]

/-- C40, the converse: a server that refuses with UnrecognizedName has a name configured and the hello names another one. -/
theorem C40_reason (ch : ClientHello) (rng : Rng) (name : Option Bytes) (h : fromClientHello ch rng name = .err .unrecognizedName) :
    ∃ n m, name = some n ∧ .serverName m ∈ ch.extensions ∧ m ≠ n := by
  have key : ∀ (l : List ClientExtension) (s : Negotiation), l.foldlM (onExtension name) s = .err .unrecognizedName →
      ∃ n m, name = some n ∧ .serverName m ∈ l ∧ m ≠ n := by
    intro l
    induction l with
    | nil => intro s hf; cases hf
    | cons e l ih =>
      intro s hf
      rw [List.foldlM_cons] at hf
      cases he : onExtension name s e with
      | ok t =>
        rw [he, Res.ok_bind] at hf
        obtain ⟨n, m, a, b, c⟩ := ih t hf
        exact ⟨n, m, a, List.mem_cons_of_mem _ b, c⟩
      | panic => rw [he] at hf; cases hf
      | err x =>
        rw [he, Res.err_bind] at hf
        cases hf
        cases e with
        | supportedVersion b => simp only [onExtension] at he; split_ifs at he; cases he
        | supportedGroups g => cases he
        | keyShare k =>
          exfalso
          simp only [onExtension] at he
          generalize k.entries = es at he
          induction es with
          | nil => cases he
          | cons x rest ihk =>
            obtain ⟨g, o⟩ := x
            by_cases hx : g = .x25519
            · subst hx
              rw [loop_x25519] at he
              cases hb : (s.rng.between 1 32 : Res TlsError (Int × Rng)) with
              | ok p => rw [hb] at he; cases he
              | panic => rw [hb] at he; cases he
              | err e' => exact between_not_err _ _ _ _ hb
            · by_cases hp : g = .secp256r1
              · subst hp; rw [keyShareLoop] at he; cases he
              · have : keyShareLoop (⟨g, o⟩ :: rest) s = keyShareLoop rest s := by
                  rw [keyShareLoop]
                  cases g <;> first | rfl | exact absurd rfl hx | exact absurd rfl hp
                rw [this] at he
                exact ihk he
        | serverName m =>
          cases name with
          | none => cases he
          | some n =>
            simp only [onExtension] at he
            split_ifs at he with hne
            exact ⟨n, m, rfl, by simp, fun hh => hne hh.symm⟩
        | signatureAlgorithms l => simp only [onExtension] at he; split_ifs at he; cases he
  unfold fromClientHello at h
  cases hb : (rng.bytes 32 : Res TlsError (Bytes × Rng)) with
  | err e' => exact absurd hb (bytes_not_err _ _ _)
  | panic => rw [hb] at h; cases h
  | ok p =>
    obtain ⟨random, rng1⟩ := p
    simp only [hb, Res.ok_bind] at h
    split_ifs at h with h2
    cases hf : ch.extensions.foldlM (onExtension name) ⟨[], none, none, rng1⟩ with
    | panic => rw [hf] at h; cases h
    | err e => rw [hf] at h; cases h; exact key _ _ hf
    | ok s =>
      rw [hf] at h
      simp only [Res.ok_bind] at h
      split_ifs at h
      · cases h
      cases hs : selectSuite ch.cipherSuites none with
      | none => rw [hs] at h; cases h
      | some cs =>
        rw [hs] at h
        cases hk : s.privateKey with
        | none => rw [hk] at h; cases h
        | some k => rw [hk] at h; cases h

/-- The example hello names the host "a": a server configured for "b" refuses it, one configured for "a" does not. -/
example : fromClientHello exampleHello exampleRng (some [98#8]) = .err .unrecognizedName ∧
    ∃ r, fromClientHello exampleHello exampleRng (some [97#8]) = .ok r := by
  have h := C40_server_name exampleHello exampleRng
  have h0 := example_ok [.aes256GcmSha384, .aes128GcmSha256, .chacha20Poly1305Sha256] .chacha20Poly1305Sha256 rfl [.supportedVersion true, .serverName [97#8]] (fun _ => rfl)
  refine ⟨(h [98#8] _ h0).1 ⟨[97#8], by simp [exampleHello], by decide⟩, _, (h [97#8] _ h0).2 ?_⟩
  intro m hm
  simpa [exampleHello] using hm

/-! ### C41 -/

/-- C41 for the shares `before` the X25519 share that satisfy `P`: a hello that would be accepted with the X25519 share alone is accepted, and the
key exchange uses that share. -/
def C41_for (P : List KeyShareEntry → Prop) : Prop :=
  ∀ (ch : ClientHello) (rng : Rng) (name : Option Bytes) (e1 e2 : List ClientExtension) (before after : List KeyShareEntry) (share : Bytes)
    (r : ServerHello × PrivateKey × Rng), P before → (∀ e ∈ before, e.group ≠ .x25519) → (∀ k, .keyShare k ∉ e1 ++ e2) →
    ch.extensions = e1 ++ [.keyShare ⟨before ++ ⟨.x25519, share⟩ :: after⟩] ++ e2 →
    fromClientHello { ch with extensions := e1 ++ [.keyShare ⟨[⟨.x25519, share⟩]⟩] ++ e2 } rng name = .ok r →
    fromClientHello ch rng name = .ok r ∧ ch.getPublicKeyShare = some ⟨.x25519, share⟩

/-- C41 in full: whatever comes before the X25519 share. -/
def C41_statement : Prop := C41_for fun _ => True

namespace NegProof

theorem fold_append {name : Option Bytes} {a b : List ClientExtension} {s : Negotiation} :
    (a ++ b).foldlM (onExtension name) s = (a.foldlM (onExtension name) s) >>= fun t => b.foldlM (onExtension name) t := by
  rw [List.foldlM_append]

/-- The result of `from_client_hello` depends on the extensions through the fold only. -/
theorem same_fold (ch : ClientHello) (exts : List ClientExtension) (rng : Rng) (name : Option Bytes)
    (h : ∀ s, ch.extensions.foldlM (onExtension name) s = exts.foldlM (onExtension name) s) :
    fromClientHello ch rng name = fromClientHello { ch with extensions := exts } rng name := by
  unfold fromClientHello
  simp only [h]

theorem publicKeyShare_of (ch : ClientHello) (e1 e2 : List ClientExtension) (k : KeyShareEntry) (ks : List KeyShareEntry)
    (h1 : ∀ k, .keyShare k ∉ e1) (h : ch.extensions = e1 ++ [.keyShare ⟨k :: ks⟩] ++ e2) : ch.getPublicKeyShare = some k := by
  unfold ClientHello.getPublicKeyShare
  rw [h, List.append_assoc, List.findSome?_append, List.findSome?_eq_none_iff.2, Option.none_or]
  · rfl
  · intro x hx
    cases x with
    | keyShare k => exact absurd hx (h1 k)
    | _ => rfl

end NegProof

/-- C41, proved part: the X25519 share comes first. Missing: if a secp256r1 share comes first the server panics (`C41_false`), if a share of
another known group comes first the key exchange fails (`C41_not_first`). -/
theorem C41_first_partial : C41_for fun before => before = [] := by
  intro ch rng name e1 e2 before after share r hP _ hno he hok
  subst hP
  simp only [List.nil_append] at he
  refine ⟨?_, publicKeyShare_of ch e1 e2 _ _ (fun k hk => hno k (List.mem_append_left _ hk)) he⟩
  rw [← hok]
  apply same_fold
  intro s
  rw [he, List.append_assoc, List.append_assoc, fold_append, fold_append]
  congr 1

/-- With a share of another known group in front, the server answers with a fresh X25519 share, but then takes the first share for the exchange
and the handshake fails. -/
theorem C41_not_first (ch : ClientHello) (rng : Rng) (name : Option Bytes) (e1 e2 : List ClientExtension) (first : KeyShareEntry)
    (after : List KeyShareEntry) (r : ServerHello × PrivateKey × Rng) (h1 : first.group ≠ .x25519) (hno : ∀ k, .keyShare k ∉ e1)
    (he : ch.extensions = e1 ++ [.keyShare ⟨first :: after⟩] ++ e2) (_ : fromClientHello ch rng name = .ok r) :
    ∃ kse, ch.getPublicKeyShare = some kse ∧ ∀ ts, KeySchedule.fromHandshake ts r.2.1 kse = .err .handshakeFailure := by
  refine ⟨first, publicKeyShare_of ch e1 e2 _ _ hno he, ?_⟩
  intro ts
  unfold KeySchedule.fromHandshake
  rw [if_pos h1]

/-- The hypotheses of `C41_not_first` are met: a secp384r1 share before the X25519 share. -/
example : ∃ r, fromClientHello ⟨zeros 32, [.aes128GcmSha256], none, [.keyShare ⟨[⟨.secp384r1, [1#8]⟩, ⟨.x25519, zeros 32⟩]⟩]⟩ exampleRng none = .ok r :=
  ⟨_, (same_fold _ [.keyShare ⟨[⟨.x25519, zeros 32⟩]⟩] exampleRng none (fun _ => rfl)).trans (example_ok [.aes128GcmSha256] _ rfl [] (fun _ => rfl))⟩

/-- C41 is false: with a secp256r1 share in front of its X25519 share (as common clients send it) the server panics. -/
theorem C41_false : ¬ C41_statement := by
  intro h
  obtain ⟨h1, _⟩ := h ⟨zeros 32, [.aes128GcmSha256], none, [.keyShare ⟨[⟨.secp256r1, zeros 65⟩, ⟨.x25519, zeros 32⟩]⟩]⟩ exampleRng none [] []
    [⟨.secp256r1, zeros 65⟩] [] (zeros 32) _ trivial (by simp) (by simp) rfl (example_ok [.aes128GcmSha256] _ rfl [] (fun _ => rfl))
  have : fromClientHello ⟨zeros 32, [.aes128GcmSha256], none, [.keyShare ⟨[⟨.secp256r1, zeros 65⟩, ⟨.x25519, zeros 32⟩]⟩]⟩ exampleRng none = .panic := by
    decide +kernel
  rw [this] at h1
  cases h1

/-! ### C36: the hellos the server builds -/

namespace NegProof

theorem loop_count : ∀ (fuel : Nat) (rest : Bytes) (acc l : List ClientExtension), fromClientHelloLoop fuel rest acc = .ok l →
    4 * l.length ≤ rest.length + 4 * acc.length
  | 0, rest, acc, l, h => by
    rw [fromClientHelloLoop] at h
    split_ifs at h
    cases h; omega
  | fuel + 1, rest, acc, l, h => by
    rw [fromClientHelloLoop] at h
    split_ifs at h with h0
    · cases h; omega
    obtain ⟨t, h1, h⟩ := Res.bind_eq_ok.1 h
    obtain ⟨s, h2, h⟩ := Res.bind_eq_ok.1 h
    have h4 : 4 ≤ rest.length := by
      unfold slice at h2
      split_ifs at h2 with hc
      exact hc.2
    simp only [] at h
    have hd : ∀ n, (rest.drop (4 + n)).length ≤ rest.length - 4 := by intro n; rw [List.length_drop]; omega
    have hd0 : (rest.drop 4).length ≤ rest.length - 4 := by rw [List.length_drop]
    have hone : ∀ (n : Nat) (x : ClientExtension), fromClientHelloLoop fuel (rest.drop (4 + n)) (acc ++ [x]) = .ok l →
        4 * l.length ≤ rest.length + 4 * acc.length := by
      intro n x hx
      have := loop_count fuel _ _ _ hx
      have := hd n
      simp only [List.length_append, List.length_singleton] at *
      omega
    split at h
    · have := loop_count fuel _ _ _ h
      have := hd (toU16 s)
      omega
    · obtain ⟨b, _, h⟩ := Res.bind_eq_ok.1 h
      obtain ⟨e, _, h⟩ := Res.bind_eq_ok.1 h
      exact hone _ _ h
    · obtain ⟨b, _, h⟩ := Res.bind_eq_ok.1 h
      obtain ⟨e, _, h⟩ := Res.bind_eq_ok.1 h
      exact hone _ _ h
    · obtain ⟨e, _, h⟩ := Res.bind_eq_ok.1 h
      exact hone _ _ h
    · obtain ⟨e, _, h⟩ := Res.bind_eq_ok.1 h
      exact hone _ _ h
    · have := loop_count fuel _ _ _ h
      omega

theorem fold_count (name : Option Bytes) : ∀ (l : List ClientExtension) (s s' : Negotiation), l.foldlM (onExtension name) s = .ok s' →
    s'.extensions.length ≤ s.extensions.length + l.length
  | [], s, s', h => by cases h; simp
  | e :: l, s, s', h => by
    rw [List.foldlM_cons] at h
    obtain ⟨t, h1, h2⟩ := Res.bind_eq_ok.1 h
    have i := fold_count name l t s' h2
    have : t.extensions.length ≤ s.extensions.length + 1 := by
      cases e with
      | supportedVersion b => simp only [onExtension] at h1; split_ifs at h1; cases h1; omega
      | supportedGroups g => cases h1; omega
      | keyShare k =>
        simp only [onExtension] at h1
        generalize k.entries = es at h1
        induction es with
        | nil => cases h1; omega
        | cons x rest ihk =>
          obtain ⟨g, o⟩ := x
          by_cases hx : g = .x25519
          · subst hx
            rw [loop_x25519] at h1
            obtain ⟨p, _, h3⟩ := Res.bind_eq_ok.1 h1
            cases h3
            simp
          · by_cases hp : g = .secp256r1
            · subst hp; rw [keyShareLoop] at h1; cases h1
            · have : keyShareLoop (⟨g, o⟩ :: rest) s = keyShareLoop rest s := by
                rw [keyShareLoop]
                cases g <;> first | rfl | exact absurd rfl hx | exact absurd rfl hp
              rw [this] at h1
              exact ihk h1
      | serverName m =>
        cases name with
        | none => cases h1; omega
        | some n => simp only [onExtension] at h1; split_ifs at h1; cases h1; omega
      | signatureAlgorithms l => simp only [onExtension] at h1; split_ifs at h1; cases h1; omega
    simp only [List.length_cons]
    omega

/-- What a parsed ClientHello looks like. -/
theorem client_parsed {buf : Bytes} {ch : ClientHello} (h : ClientHello.fromRaw buf = .ok ch) :
    4 * ch.extensions.length ≤ buf.length ∧ ∀ s, ch.legacySessionIdEcho = some s → s.length = 32 := by
  unfold ClientHello.fromRaw at h
  split_ifs at h with h0
  obtain ⟨v0, _, h⟩ := Res.bind_eq_ok.1 h
  obtain ⟨v1, _, h⟩ := Res.bind_eq_ok.1 h
  split_ifs at h with h1
  obtain ⟨random, _, h⟩ := Res.bind_eq_ok.1 h
  obtain ⟨sl, _, h⟩ := Res.bind_eq_ok.1 h
  obtain ⟨⟨consumed, sid⟩, hsid, h⟩ := Res.bind_eq_ok.1 h
  have hs : ∀ s, sid = some s → s.length = 32 := by
    intro s hs
    split_ifs at hsid with hz
    · obtain ⟨x, hx, hy⟩ := Res.bind_eq_ok.1 hsid
      cases hy
      cases hs
      unfold slice at hx
      split_ifs at hx with hc
      cases hx
      rw [List.length_take, List.length_drop]
      omega
    · cases hsid; cases hs
  obtain ⟨c0, _, h⟩ := Res.bind_eq_ok.1 h
  obtain ⟨c1, _, h⟩ := Res.bind_eq_ok.1 h
  simp only [] at h
  split_ifs at h with h2
  obtain ⟨suites, _, h⟩ := Res.bind_eq_ok.1 h
  obtain ⟨e0, _, h⟩ := Res.bind_eq_ok.1 h
  obtain ⟨e1, _, h⟩ := Res.bind_eq_ok.1 h
  obtain ⟨eb, heb, h⟩ := Res.bind_eq_ok.1 h
  obtain ⟨exts, hexts, h⟩ := Res.bind_eq_ok.1 h
  cases h
  refine ⟨?_, hs⟩
  have := loop_count _ _ _ _ hexts
  unfold slice at heb
  split_ifs at heb with hc
  cases heb
  simp only [List.length_nil, List.length_take, List.length_drop] at this ⊢
  omega

end NegProof

/-- C36, reachability: every ServerHello the server builds in answer to a received ClientHello (which fits into the 4096 bytes of one read) is
one of those `C36_server_hello` speaks about: it encodes to RFC 8446's message, and a client that parses the encoding gets the server's random, session id, suite and
key share (the share whose private key the server holds, as the last one). -/
theorem C36_reachable (buf : Bytes) (ch : ClientHello) (rng : Rng) (name : Option Bytes) (sh : ServerHello) (pk : PrivateKey) (rng' : Rng)
    (hbuf : buf.length ≤ 4096) (hch : ClientHello.fromRaw buf = .ok ch) (h : fromClientHello ch rng name = .ok (sh, pk, rng')) :
    ∃ wire shares, sh.asBytes = .ok wire ∧ wire.length ≤ 65535 ∧
      wire = (Spec.Tls13.ServerHelloMsg.mk sh.random (ch.legacySessionIdEcho.getD []) sh.cipherSuite.asU16
        (shares.map (fun s => .keyShare (29, s.reverse)) ++ [.supportedVersions 0x0304])).bytes ∧
      ServerHello.fromRaw wire = .ok ⟨sh.random, sh.legacySessionIdEcho, sh.cipherSuite, serverExtensions (shares.map List.reverse)⟩ ∧
      sh.extensions = serverExtensions shares ∧ shares.getLast? = some (publicShare pk.secret).reverse ∧
      sh.legacySessionIdEcho = ch.legacySessionIdEcho := by
  obtain ⟨hn, hsid⟩ := client_parsed hch
  obtain ⟨random, rng1, s, cs, h1, h2, h3, h4, h5, h6, rfl, rfl⟩ := ok_iff h
  have hi := inv_fold name _ _ _ (inv_start rng1) h3
  obtain ⟨shares, he, hl⟩ := hi.exts
  have hc := fold_count name _ _ _ h3
  have hlen : shares.length ≤ 1024 := by
    rw [he] at hc
    simp only [List.length_map, List.length_nil] at hc
    omega
  obtain ⟨wire, w1, w3, w4, w2⟩ := C36_server_hello random ch.legacySessionIdEcho cs shares h2 hsid hl (by omega)
  have hse : s.extensions ++ [.supportedVersions true] = serverExtensions shares := by rw [he]; rfl
  refine ⟨wire, shares, by rw [hse]; exact w1, by omega, w3, w2, hse, ?_, rfl⟩
  have := hi.last pk h6
  rw [he, List.getLast?_map] at this
  cases hg : shares.getLast? with
  | none => rw [hg] at this; cases this
  | some x => rw [hg] at this; simpa using this

end ATLS
