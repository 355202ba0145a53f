import Verif.Model.Config
import Verif.Model.KeyLog
import Verif.Props.Negotiation
import Verif.Props.Codec
/-
C55 (random numbers), C56 (configuration), C58 (key log lines).
-/
namespace ATLS
open ATLS.Model ATLS.Spec

/-! ### C55 -/

/-- The operating system can serve the next request: a full read of `/dev/urandom` is available. The simple generator needs nothing but a
non-negative seed (the only one the library uses is 0, and it only grows). -/
def Rng.Ready : Rng → Prop
  | .simple seed => 0 ≤ seed
  | .urandom reads => ∃ b rest, reads = b :: rest ∧ b.length = 100

/-- C55 for the requests `P`: `n` bytes are returned when `n` are requested. -/
def C55_bytes_for (P : Rng → Nat → Prop) : Prop :=
  ∀ (rng : Rng) (n : Nat), Rng.Ready rng → P rng n → ∃ b rng', (rng.bytes n : Res TlsError (Bytes × Rng)) = .ok (b, rng') ∧ b.length = n

/-- C55 in full: the bytes, and the range of `between` (values of `min` to `max` bytes). -/
def C55_statement : Prop :=
  (C55_bytes_for fun _ _ => True) ∧
  ∀ (rng : Rng) (min max : Nat), Rng.Ready rng → min < max → ∃ v rng', (rng.between min max : Res TlsError (Int × Rng)) = .ok (v, rng') ∧
    2 ^ (8 * min) ≤ v ∧ v < 2 ^ (8 * max)

/-- C55, the range: proved in full for both generators, and for the 32-bit generator whose range is `min` to `max` itself. -/
theorem C55_range :
    (∀ (rng : Rng) (min max : Nat), Rng.Ready rng → min < max → ∃ v rng', (rng.between min max : Res TlsError (Int × Rng)) = .ok (v, rng') ∧
      2 ^ (8 * min) ≤ v ∧ v < 2 ^ (8 * max)) ∧
    (∀ (s : BitVec 32) (min max : Nat), min < max → max < 2 ^ 32 → ∃ v s', (SimpleRng32.between s min max : Res TlsError _) = .ok (v, s') ∧
      min ≤ v.toNat ∧ v.toNat < max) := by
  constructor
  · intro rng min max hr hm
    have hlt : (2 : Int) ^ (min * 8) < 2 ^ (max * 8) := pow_lt_pow_right₀ (by norm_num) (by omega)
    have key : ∀ n : Nat, (2 : Int) ^ (8 * min) ≤ (n : Int).tmod (2 ^ (max * 8) - 2 ^ (min * 8)) + 2 ^ (min * 8) ∧
        (n : Int).tmod (2 ^ (max * 8) - 2 ^ (min * 8)) + 2 ^ (min * 8) < 2 ^ (8 * max) := by
      intro n
      rw [mul_comm 8 min, mul_comm 8 max]
      have h1 := Int.tmod_nonneg ((2 : Int) ^ (max * 8) - 2 ^ (min * 8)) (Int.natCast_nonneg n)
      have h2 := Int.tmod_lt_of_pos (n : Int) (b := (2 : Int) ^ (max * 8) - 2 ^ (min * 8)) (by linarith)
      constructor <;> linarith
    cases rng with
    | simple seed =>
      have hs : ¬ seed < 0 := by have : 0 ≤ seed := hr; omega
      unfold Rng.between SimpleRng.next ibigTo32bytes ibigToVec
      simp only [if_neg hs, Res.ok_bind]
      rw [if_neg (by linarith)]
      exact ⟨_, _, rfl, key _⟩
    | urandom reads =>
      obtain ⟨b, rest, rfl, hb⟩ := hr
      have h8 : (slice b 0 8 : Res TlsError Bytes) = .ok ((b.drop 0).take (8 - 0)) := by
        unfold slice; rw [if_pos ⟨by omega, by omega⟩]
      obtain ⟨s, hs⟩ : ∃ s, s = (b.drop 0).take (8 - 0) := ⟨_, rfl⟩
      have hsl : s.length = 8 := by rw [hs]; simp [hb]
      have hu : ∃ u, (toU64Le s : Res TlsError (BitVec 64)) = .ok u := by
        unfold toU64Le slice
        rw [if_pos ⟨by omega, by omega⟩]
        exact ⟨_, rfl⟩
      obtain ⟨u, hu⟩ := hu
      unfold Rng.between URandomRng.next readFromUrandom
      simp only [if_pos hb, Res.ok_bind, h8, ← hs, hu]
      have hd : (slice b 8 (u.toNat % 50 + 50) : Res TlsError Bytes) = .ok ((b.drop 8).take (u.toNat % 50 + 50 - 8)) := by
        unfold slice; rw [if_pos ⟨by omega, by omega⟩]
      rw [hd]
      simp only [Res.ok_bind]
      rw [if_neg (by linarith)]
      exact ⟨_, _, rfl, key _⟩
  · intro s min max hm hx
    have e1 : (BitVec.ofNat 32 min).toNat = min := by simp; omega
    have e2 : (BitVec.ofNat 32 max).toNat = max := by simp; omega
    have e3 : (BitVec.ofNat 32 max - BitVec.ofNat 32 min).toNat = max - min := by
      rw [BitVec.toNat_sub_of_le (by rw [BitVec.le_def, e1, e2]; omega), e1, e2]
    unfold SimpleRng32.between
    simp only []
    rw [if_neg (by rw [BitVec.lt_def, e1, e2]; omega), if_neg (by
      intro h0
      have := congrArg BitVec.toNat h0
      rw [e3] at this
      simp at this
      omega)]
    have hv : ((SimpleRng32.next s).1 % (BitVec.ofNat 32 max - BitVec.ofNat 32 min)).toNat < max - min := by
      rw [BitVec.toNat_umod, e3]
      exact Nat.mod_lt _ (by omega)
    rw [if_pos (by rw [e1]; omega)]
    refine ⟨_, _, rfl, ?_⟩
    rw [BitVec.toNat_add, e1, Nat.mod_eq_of_lt (by omega)]
    omega

/-- C55, proved part for the bytes: the generator the library uses by default, for requests of up to 100 bytes (the library asks for 32).
Missing: larger requests panic, and the simple generator never returns the bytes requested (`C55_false`). -/
theorem C55_bytes_partial : C55_bytes_for fun rng n => (∃ reads, rng = .urandom reads) ∧ n ≤ 100 := by
  rintro rng n hr ⟨⟨reads, rfl⟩, hn⟩
  obtain ⟨b, rest, rfl, hb⟩ := hr
  unfold Rng.bytes readFromUrandom slice
  simp only [if_pos hb, Res.ok_bind]
  rw [if_pos ⟨by omega, by omega⟩]
  refine ⟨_, _, rfl, ?_⟩
  simp [hb, hn]

/-- The loop of the simple generator: a request for at least one byte returns none, a request for zero bytes never returns, whatever the number
of rounds. -/
theorem C55_simple_loop (seed : Int) (hs : 0 ≤ seed) (fuel : Nat) :
    (∀ size, 0 < size → (SimpleRng.bytes size (fuel + 1) seed [] : Res TlsError _) = .ok (some ([], seed))) ∧
    (∀ res, (SimpleRng.bytes 0 fuel seed res : Res TlsError _) = .ok none) := by
  constructor
  · intro size h
    rw [SimpleRng.bytes]
    rw [if_neg (by simp; omega)]
  · intro res
    induction fuel generalizing seed res with
    | zero => rfl
    | succ fuel ih =>
      have hn : ∀ n : Nat, ¬ (n : Int) < 0 := by intro n; omega
      rw [SimpleRng.bytes, if_pos (Nat.zero_le _)]
      unfold SimpleRng.next ibigTo32bytes ibigToVec
      simp only [if_neg (show ¬ seed < 0 by omega), Res.ok_bind, if_neg (hn _)]
      exact ih (seed + 10) (by omega) _

/-- C55 is false: 101 bytes of `/dev/urandom` cannot be requested, the simple generator returns no bytes when one is requested; a server with the
simple generator panics on every ClientHello. -/
theorem C55_false : ¬ C55_statement ∧
    (∀ reads : List Bytes, ((Rng.urandom reads).bytes 101 : Res TlsError (Bytes × Rng)) = .panic) ∧
    (∀ seed, ((Rng.simple seed).bytes 1 : Res TlsError (Bytes × Rng)) = .ok ([], .simple seed)) ∧
    (∀ ch seed name, ServerHello.fromClientHello ch (.simple seed) name = .panic) := by
  refine ⟨?_, ?_, fun _ => rfl, fun _ _ _ => rfl⟩
  · rintro ⟨h, _⟩
    obtain ⟨b, rng', h1, h2⟩ := h (.simple 0) 1 (le_refl (0 : Int)) trivial
    cases h1
    cases h2
  · intro reads
    cases reads with
    | nil => rfl
    | cons b rest =>
      unfold Rng.bytes readFromUrandom slice
      simp only []
      by_cases hb : b.length = 100
      · simp only [if_pos hb, Res.ok_bind]
        rw [if_neg (by omega)]
        rfl
      · simp only [if_neg hb, Res.panic_bind]

/-- A generator with a read available. -/
example : Rng.Ready (.urandom [zeros 100]) := ⟨zeros 100, [], rfl, rfl⟩

/-! ### C56 -/

/-- The calls a program can make on the server's configuration builder. The files read by the first three are given by what they contain. -/
inductive BuilderCall where
  | certPem (c : Certificate)
  | privkeyPem (k : PrivateKey)
  | clientCertCa (c : Certificate)
  | customVerifyFn (f : X509 → Bool)
  | keylogPath (p : Bytes)
  | enableKeylog
  | serverName (n : Bytes)
  | prng (p : Prng)

/-- Making a call. -/
def BuilderCall.apply (b : ServerConfigBuilder) : BuilderCall → Res Bytes ServerConfigBuilder
  | .certPem c => b.addCertPem (some c)
  | .privkeyPem k => b.addPrivkeyPem (some k)
  | .clientCertCa c => b.addClientCertCa (some c)
  | .customVerifyFn f => .ok (b.setClientCertCustomVerifyFn f)
  | .keylogPath p => .ok (b.setKeylogPath p)
  | .enableKeylog => .ok b.enableKeylog
  | .serverName n => .ok (b.setServerName n)
  | .prng p => .ok (b.setPrng p)

/-- The last of the calls that `f` recognises. -/
def lastOf {α : Type} (f : BuilderCall → Option α) (calls : List BuilderCall) : Option α := (calls.filterMap f).getLast?

/-- What `build` must return after the given calls: the settings are those of the last call of each kind. -/
def expectedConfig (calls : List BuilderCall) : Option ServerConfig :=
  match lastOf (fun | .certPem c => some c | _ => none) calls, lastOf (fun | .privkeyPem k => some k | _ => none) calls with
  | some cert, some key =>
    let ca := lastOf (fun | .clientCertCa c => some c | _ => none) calls
    let fn := lastOf (fun | .customVerifyFn f => some f | _ => none) calls
    if fn.isSome ∧ ca.isNone then none
    else some ⟨key, cert, ca, fn,
      lastOf (fun | .keylogPath p => some p | .enableKeylog => some (ascii "keylog.txt") | _ => none) calls,
      lastOf (fun | .serverName n => some n | _ => none) calls,
      (lastOf (fun | .prng p => some p | _ => none) calls).getD .urandom⟩
  | _, _ => none

theorem lastOf_append {α : Type} (f : BuilderCall → Option α) (calls : List BuilderCall) (c : BuilderCall) :
    lastOf f (calls ++ [c]) = (f c).or (lastOf f calls) := by
  unfold lastOf
  rw [List.filterMap_append]
  cases h : f c with
  | none => simp [h]
  | some a => simp [h]

/-- C56: after any sequence of calls on the builder, `build` returns a configuration iff a certificate and a key were given and, when a custom
verification function was set, a client CA too; the configuration holds exactly what was set last; otherwise `build` returns an error, it does not
panic. -/
theorem C56_build (calls : List BuilderCall) :
    ∃ b, calls.foldlM BuilderCall.apply ServerConfigBuilder.new = .ok b ∧
      match expectedConfig calls with
      | some cfg => b.build = .ok cfg
      | none => ∃ msg, b.build = .err msg := by
  have key : ∃ b, calls.foldlM BuilderCall.apply ServerConfigBuilder.new = .ok b ∧
      b.cert = lastOf (fun | .certPem c => some c | _ => none) calls ∧
      b.privkey = lastOf (fun | .privkeyPem k => some k | _ => none) calls ∧
      b.keylog = lastOf (fun | .keylogPath p => some p | .enableKeylog => some (ascii "keylog.txt") | _ => none) calls ∧
      b.serverName = lastOf (fun | .serverName n => some n | _ => none) calls ∧
      b.clientCertCa = lastOf (fun | .clientCertCa c => some c | _ => none) calls ∧
      b.prngType = (lastOf (fun | .prng p => some p | _ => none) calls).getD .urandom ∧
      b.clientCertCustomVerifyFn = lastOf (fun | .customVerifyFn f => some f | _ => none) calls := by
    induction calls using List.reverseRecOn with
    | nil => exact ⟨_, rfl, rfl, rfl, rfl, rfl, rfl, rfl, rfl⟩
    | append_singleton calls c ih =>
      obtain ⟨b, h1, h2, h3, h4, h5, h6, h7, h8⟩ := ih
      rw [List.foldlM_append, h1]
      simp only [Res.ok_bind, List.foldlM_cons, List.foldlM_nil, lastOf_append]
      cases c <;> exact ⟨_, rfl, by first | rfl | exact h2, by first | rfl | exact h3, by first | rfl | exact h4, by first | rfl | exact h5,
        by first | rfl | exact h6, by first | rfl | exact h7, by first | rfl | exact h8⟩
  obtain ⟨b, h1, h2, h3, h4, h5, h6, h7, h8⟩ := key
  refine ⟨b, h1, ?_⟩
  unfold expectedConfig
  rw [← h2, ← h3]
  unfold ServerConfigBuilder.build
  cases hc : b.cert with
  | none => exact ⟨_, rfl⟩
  | some c =>
    cases hk : b.privkey with
    | none => exact ⟨_, rfl⟩
    | some k =>
      simp only [← h4, ← h5, ← h6, ← h7, ← h8]
      by_cases hx : b.clientCertCustomVerifyFn.isSome ∧ b.clientCertCa.isNone
      · rw [if_pos hx]
        simp only [Option.isNone_some, Bool.false_eq_true, if_false, if_pos hx]
        exact ⟨_, rfl⟩
      · rw [if_neg hx]
        simp only [Option.isNone_some, Bool.false_eq_true, if_false, if_neg hx, Res.unwrap, Res.ok_bind]

/-- Both cases occur: a certificate and a key are enough; with a verification function they are not. -/
example : (∃ cfg, expectedConfig [.certPem ⟨[], none⟩, .privkeyPem ⟨.secp256r1, 5⟩] = some cfg) ∧
    expectedConfig [.certPem ⟨[], none⟩, .privkeyPem ⟨.secp256r1, 5⟩, .customVerifyFn fun _ => true] = none := ⟨⟨_, rfl⟩, rfl⟩

/-- The calls a program can make on the client's configuration builder. -/
inductive ClientBuilderCall where
  | certPem (c : Certificate)
  | keyPem (k : PrivateKey)
  | serverName (n : Bytes)
  | keylogPath (p : Bytes)
  | enableKeylog

/-- Making a call. -/
def ClientBuilderCall.apply (b : ClientConfigBuilder) : ClientBuilderCall → Res Bytes ClientConfigBuilder
  | .certPem c => b.addClientCertPem (some c)
  | .keyPem k => b.addClientKeyPem (some k)
  | .serverName n => .ok (b.setServerName n)
  | .keylogPath p => .ok (b.setKeylogPath p)
  | .enableKeylog => .ok b.enableKeylog

/-- The last of the calls that `f` recognises. -/
def lastClientCall {α : Type} (f : ClientBuilderCall → Option α) (calls : List ClientBuilderCall) : Option α := (calls.filterMap f).getLast?

theorem lastClientCall_append {α : Type} (f : ClientBuilderCall → Option α) (calls : List ClientBuilderCall) (c : ClientBuilderCall) :
    lastClientCall f (calls ++ [c]) = (f c).or (lastClientCall f calls) := by
  unfold lastClientCall
  rw [List.filterMap_append]
  cases h : f c with
  | none => simp [h]
  | some a => simp [h]

/-- C56, the client: after any sequence of calls, `build` returns a configuration iff no certificate was given without its key; the configuration
holds exactly what was set last. Otherwise `build` panics. -/
theorem C56_client_build (calls : List ClientBuilderCall) (cert : Option Certificate) (key : Option PrivateKey)
    (hcert : cert = lastClientCall (fun | .certPem c => some c | _ => none) calls)
    (hkey : key = lastClientCall (fun | .keyPem k => some k | _ => none) calls) :
    ∃ b, calls.foldlM ClientBuilderCall.apply ClientConfigBuilder.new = .ok b ∧
      (cert ≠ none ∧ key = none → b.build = .panic) ∧
      (cert = none ∨ key ≠ none → b.build = .ok ⟨lastClientCall (fun | .serverName n => some n | _ => none) calls, cert, key,
        lastClientCall (fun | .keylogPath p => some p | .enableKeylog => some (ascii "keylog.txt") | _ => none) calls⟩) := by
  have main : ∃ b, calls.foldlM ClientBuilderCall.apply ClientConfigBuilder.new = .ok b ∧
      b.clientCert = lastClientCall (fun | .certPem c => some c | _ => none) calls ∧
      b.clientKey = lastClientCall (fun | .keyPem k => some k | _ => none) calls ∧
      b.keylog = lastClientCall (fun | .keylogPath p => some p | .enableKeylog => some (ascii "keylog.txt") | _ => none) calls ∧
      b.serverName = lastClientCall (fun | .serverName n => some n | _ => none) calls := by
    clear hcert hkey
    induction calls using List.reverseRecOn with
    | nil => exact ⟨_, rfl, rfl, rfl, rfl, rfl⟩
    | append_singleton calls c ih =>
      obtain ⟨b, h1, h2, h3, h4, h5⟩ := ih
      rw [List.foldlM_append, h1]
      simp only [Res.ok_bind, List.foldlM_cons, List.foldlM_nil, lastClientCall_append]
      cases c <;> exact ⟨_, rfl, by first | rfl | exact h2, by first | rfl | exact h3, by first | rfl | exact h4, by first | rfl | exact h5⟩
  obtain ⟨b, h1, h2, h3, h4, h5⟩ := main
  rw [← h2] at hcert
  rw [← h3] at hkey
  refine ⟨b, h1, ?_, ?_⟩
  · rintro ⟨ha, hb⟩
    unfold ClientConfigBuilder.build
    rw [if_pos ⟨by rw [← hcert]; exact Option.isSome_iff_ne_none.2 ha, by rw [← hkey, hb]; rfl⟩]
  · intro h
    unfold ClientConfigBuilder.build
    rw [if_neg (by
      rintro ⟨x, y⟩
      rw [← hcert, Option.isSome_iff_ne_none] at x
      rw [← hkey, Option.isNone_iff_eq_none] at y
      rcases h with h | h
      · exact x h
      · exact h y), ← h4, ← h5, hcert, hkey]

/-- Both cases occur. -/
example : ∃ b, [ClientBuilderCall.certPem ⟨[], none⟩].foldlM ClientBuilderCall.apply ClientConfigBuilder.new = .ok b ∧ b.build = .panic :=
  ⟨_, rfl, rfl⟩
example : ∃ b cfg, [ClientBuilderCall.certPem ⟨[], none⟩, .keyPem ⟨.secp256r1, 5⟩].foldlM ClientBuilderCall.apply ClientConfigBuilder.new = .ok b ∧
    b.build = .ok cfg := ⟨_, _, rfl, rfl⟩

/-! ### C58: the lines -/

/-- The fields of a line, separated by blanks. -/
def fields (line : Bytes) : List Bytes := line.splitOn 0x20#8

/-- The lines of a text, each ended by a newline. -/
def lines (text : Bytes) : List Bytes := (text.splitOn 0x0a#8).dropLast

/-- The text consists of these lines, each ended by a newline, and of nothing else. -/
def IsLines (text : Bytes) (ls : List Bytes) : Prop := text = ls.flatMap (fun l => l ++ [0x0a#8]) ∧ lines text = ls

namespace KeyLogProof

theorem splitOn_sep (x : Byte) : ∀ (a : Bytes) (b : Bytes), x ∉ a → (a ++ x :: b).splitOn x = a :: b.splitOn x
  | a, b, h => by
    have := List.splitOnP_append_cons_of_forall_mem (p := (· == x)) (xs := a) (sep := x) (as := b)
      (by intro y hy; simp; rintro rfl; exact h hy) (by simp)
    simpa [List.splitOn] using this

theorem splitOn_none (x : Byte) (a : Bytes) (h : x ∉ a) : a.splitOn x = [a] := by
  have := List.splitOnP_eq_singleton (p := (· == x)) (xs := a) (by intro y hy; simp; rintro rfl; exact h hy)
  simpa [List.splitOn] using this

theorem hexDigit_ok : ∀ n : Fin 16, hexDigit n.1 ≠ 0x20#8 ∧ hexDigit n.1 ≠ 0x0a#8 := by decide +kernel

theorem hex_mem (x : Byte) (hx : x = 0x20#8 ∨ x = 0x0a#8) (l : Bytes) : x ∉ toHex l := by
  intro h
  unfold toHex at h
  obtain ⟨b, _, hb⟩ := List.mem_flatMap.1 h
  have hlt := b.isLt
  have h1 := hexDigit_ok ⟨b.toNat / 16, by omega⟩
  have h2 := hexDigit_ok ⟨b.toNat % 16, by omega⟩
  simp only [List.mem_cons, List.not_mem_nil, or_false] at hb
  rcases hx with rfl | rfl <;> rcases hb with hb | hb
  · exact h1.1 hb.symm
  · exact h2.1 hb.symm
  · exact h1.2 hb.symm
  · exact h2.2 hb.symm

theorem entry_fields (k : KeyLog) (r : Bytes) (hk : k.clientRandom = toHex r) (label : String) (secret : Bytes) (hl : 0x20#8 ∉ ascii label) :
    fields (k.entry label secret) = [ascii label, toHex r, toHex secret] := by
  have e : k.entry label secret = ascii label ++ 0x20#8 :: (toHex r ++ 0x20#8 :: toHex secret) := by
    have : ascii " " = [0x20#8] := by decide
    simp only [KeyLog.entry, hk, this, List.append_assoc, List.cons_append, List.nil_append]
  unfold fields
  rw [e, splitOn_sep _ _ _ hl, splitOn_sep _ _ _ (hex_mem _ (Or.inl rfl) _), splitOn_none _ _ (hex_mem _ (Or.inl rfl) _)]

theorem entry_nl (k : KeyLog) (r : Bytes) (hk : k.clientRandom = toHex r) (label : String) (secret : Bytes) (hl : 0x0a#8 ∉ ascii label) :
    0x0a#8 ∉ k.entry label secret := by
  have : ascii " " = [0x20#8] := by decide
  simp only [KeyLog.entry, hk, this, List.mem_append, not_or]
  exact ⟨⟨⟨⟨hl, by decide⟩, hex_mem _ (Or.inr rfl) _⟩, by decide⟩, hex_mem _ (Or.inr rfl) _⟩

theorem two_text (a b : Bytes) : a ++ ascii "\n" ++ b ++ ascii "\n" = [a, b].flatMap fun l => l ++ [0x0a#8] := by
  have : ascii "\n" = [0x0a#8] := by decide
  simp [this]

theorem two_lines (a b : Bytes) (ha : 0x0a#8 ∉ a) (hb : 0x0a#8 ∉ b) : lines (a ++ ascii "\n" ++ b ++ ascii "\n") = [a, b] := by
  have e : a ++ ascii "\n" ++ b ++ ascii "\n" = a ++ 0x0a#8 :: (b ++ 0x0a#8 :: []) := by
    have : ascii "\n" = [0x0a#8] := by decide
    simp only [this, List.append_assoc, List.cons_append, List.nil_append]
  unfold lines
  rw [e, splitOn_sep _ _ _ ha, splitOn_sep _ _ _ hb]
  simp

end KeyLogProof
open KeyLogProof

/-- A line of the key log file states `secret` under `label` for the connection with the given client random: three fields, the label and the
hexadecimal texts, from which the bytes are read back. -/
def States (line : Bytes) (label : String) (random secret : Bytes) : Prop :=
  ∃ r s, fields line = [ascii label, r, s] ∧ (fromHex r : Res Unit Bytes) = .ok random ∧ (fromHex s : Res Unit Bytes) = .ok secret

/-- C58, the format: what is appended for a pair of secrets is two lines that state them, whatever the bytes. -/
theorem C58_lines (path random server client : Bytes) :
    (∃ l1 l2, IsLines ((KeyLog.new path random).handshakeTrafficSecrets server client) [l1, l2] ∧
      States l1 "SERVER_HANDSHAKE_TRAFFIC_SECRET" random server ∧ States l2 "CLIENT_HANDSHAKE_TRAFFIC_SECRET" random client) ∧
    (∃ l1 l2, IsLines ((KeyLog.new path random).applicationTrafficSecrets server client) [l1, l2] ∧
      States l1 "SERVER_TRAFFIC_SECRET_0" random server ∧ States l2 "CLIENT_TRAFFIC_SECRET_0" random client) := by
  have st : ∀ (label : String) (secret : Bytes), 0x20#8 ∉ ascii label → States ((KeyLog.new path random).entry label secret) label random secret :=
    fun label secret hl => ⟨_, _, entry_fields _ random rfl label secret hl, (C03_hex_roundtrip _).1, (C03_hex_roundtrip _).1⟩
  have nl : ∀ (label : String) (secret : Bytes), 0x0a#8 ∉ ascii label → 0x0a#8 ∉ (KeyLog.new path random).entry label secret :=
    fun label secret hl => entry_nl _ random rfl label secret hl
  exact ⟨⟨_, _, ⟨two_text _ _, two_lines _ _ (nl _ _ (by decide)) (nl _ _ (by decide))⟩, st _ _ (by decide), st _ _ (by decide)⟩,
    ⟨_, _, ⟨two_text _ _, two_lines _ _ (nl _ _ (by decide)) (nl _ _ (by decide))⟩, st _ _ (by decide), st _ _ (by decide)⟩⟩

/-- A concrete line. -/
example : States (ascii "CLIENT_TRAFFIC_SECRET_0 0a ff") "CLIENT_TRAFFIC_SECRET_0" [0x0a#8] [0xff#8] :=
  ⟨ascii "0a", ascii "ff", by decide, by decide, by decide⟩

end ATLS
