import Verif.Spec.Recursion
import Verif.Props.Hello
import Verif.Props.X509
import Verif.Props.Server
import Verif.Props.Client
import Verif.Proof.ServerPres
import Verif.Proof.ClientPres
import Verif.Props.PairExample
/-
C84: whatever the peer sends, the loops and recursions behind `accept` and `connect` end. The model bounds each by a number of rounds; here each loop is
written once more as one round followed by the rest of the loop (`go`), without a bound, and the model's result is shown to be the one of that loop.
-/
namespace ATLS
open ATLS.Model ATLS.Spec

/-! ### The loops, one round each -/

namespace Rounds

/-- net/server/connection.rs:111-121: one round of the loop over the reads. -/
def serverReads (env : ServerEnv) (go : ServerHandshake → Res TlsError Unit × ServerHandshake) : ServerHandshake → Res TlsError Unit × ServerHandshake :=
  (do
    let h ← .get
    if h.state = .ready then pure ()
    else do
      let rx ← ServerHandshake.onStream fun s => s.tcpRead 4096
      ServerHandshake.recordsLoop env rx.length rx
      ServerHandshake.onStream TlsStream.flush
      go : Step ServerHandshake TlsError Unit)

/-- net/server/connection.rs:113-118: one round of the loop over the records of a read. -/
def serverRecords (env : ServerEnv) (go : Bytes → Step ServerHandshake TlsError Unit) (rest : Bytes) : Step ServerHandshake TlsError Unit :=
  if rest = [] then pure ()
  else do
    let (consumed, record) ← .lift (Record.fromRaw rest)
    ServerHandshake.handleRecord env record
    go (rest.drop consumed)

/-- net/client/connection.rs:108-146: one round of the loop over the reads. -/
def clientReads (env : ClientEnv) (go : Bytes × ClientHandshake → Res TlsError Unit × ClientHandshake) (x : Bytes × ClientHandshake) :
    Res TlsError Unit × ClientHandshake :=
  (do
    let h ← .get
    if h.state = .ready then pure ()
    else do
      let rx ← ClientHandshake.onStream fun s => s.tcpRead 2048
      let defragmented := if x.1 = [] then [] else x.1 ++ rx
      let defragmented ← ClientHandshake.recordsLoop env rx (rx.length + defragmented.length + 1) 0 defragmented
      ClientHandshake.onStream TlsStream.flush
      (fun h => go (defragmented, h)) : Step ClientHandshake TlsError Unit) x.2

/-- net/client/connection.rs:122-142: one round of the loop over the records. -/
def clientRecords (env : ClientEnv) (rx : Bytes) (go : Nat × Bytes → Step ClientHandshake TlsError Bytes) (x : Nat × Bytes) : Step ClientHandshake TlsError Bytes :=
  if x.1 < rx.length ∨ x.2 ≠ [] then do
    let recordBuf ← .lift (if x.2 = [] then sliceFrom rx x.1 else sliceFrom x.2 x.1)
    match Record.fromRaw recordBuf with
    | .panic => .crash
    | .err _ => pure (if x.2 = [] then rx.drop x.1 else x.2)
    | .ok (consumed, record) => do
      ClientHandshake.handleRecord env record
      let offset := x.1 + consumed
      if offset = x.2.length then pure [] else go (offset, x.2)
  else pure x.2

/-- net/client/connection.rs:308-334: one round of the loop over the messages of a record. -/
def clientMessages (env : ClientEnv) (go : Bytes → Step ClientHandshake TlsError Unit) (rest : Bytes) : Step ClientHandshake TlsError Unit :=
  if rest = [] then pure ()
  else do
    let handshake ← .lift (Handshake.fromRaw rest)
    ClientHandshake.handleMessage env handshake
    go (rest.drop handshake.raw.length)

/-- net/extensions/key_share.rs:66-77: one round. -/
def keyShares (len : Nat) (go : Bytes × Nat × List KeyShareEntry → Res TlsError (List KeyShareEntry)) (x : Bytes × Nat × List KeyShareEntry) :
    Res TlsError (List KeyShareEntry) := do
  let (used, entry) ← KeyShareEntry.parse x.1
  if used ≤ 7 then .ok x.2.2
  else if x.2.1 + used ≥ len then .ok (x.2.2 ++ [entry])
  else go (x.1.drop used, x.2.1 + used, x.2.2 ++ [entry])

/-- net/extensions/client.rs:40-68: one round. -/
def clientExtensions (go : Bytes × List ClientExtension → Res TlsError (List ClientExtension)) (x : Bytes × List ClientExtension) : Res TlsError (List ClientExtension) :=
  if x.1 = [] then .ok x.2
  else do
    let t ← slice x.1 0 2
    let s ← slice x.1 2 4
    let size := toU16 s
    match ExtensionType.new (toU16 t) with
    | none => go (x.1.drop (4 + size), x.2)
    | some .serverName => do
      let body ← slice x.1 4 (4 + size)
      let e ← ServerName.serverParse body
      go (x.1.drop (4 + size), x.2 ++ [.serverName e])
    | some .keyShare => do
      let body ← slice x.1 4 (4 + size)
      let e ← KeyShare.parse body false
      go (x.1.drop (4 + size), x.2 ++ [.keyShare e])
    | some .supportedVersions => do
      let e ← SupportedVersions.serverParse (x.1.drop 4)
      go (x.1.drop (4 + size), x.2 ++ [.supportedVersion e])
    | some .signatureAlgorithms => do
      let e ← SignatureAlgorithms.serverParse (x.1.drop 4)
      go (x.1.drop (4 + size), x.2 ++ [.signatureAlgorithms e])
    | some .supportedGroups => go (x.1.drop 4, x.2)

/-- net/extensions/server.rs:38-63: one round. -/
def helloExtensions (go : Bytes × List ServerExtension → Res TlsError (List ServerExtension)) (x : Bytes × List ServerExtension) : Res TlsError (List ServerExtension) :=
  if x.1 = [] then .ok x.2
  else do
    let t ← slice x.1 0 2
    let s ← slice x.1 2 4
    let size := toU16 s
    match ExtensionType.new (toU16 t) with
    | none => go (x.1.drop (4 + size), x.2)
    | some .keyShare => do
      let body ← slice x.1 4 (4 + size)
      let e ← KeyShare.parse body true
      go (x.1.drop (4 + size), x.2 ++ [.keyShare e])
    | some .supportedVersions => do
      let e ← SupportedVersions.clientParse (x.1.drop 4)
      go (x.1.drop (4 + size), x.2 ++ [.supportedVersions e])
    | some .signatureAlgorithms => do
      let e ← SignatureAlgorithms.serverParse (x.1.drop 4)
      go (x.1.drop (4 + size), x.2 ++ [.signatureAlgorithms e])
    | some _ => go (x.1.drop 4, x.2)

/-- net/extensions/certificate_request.rs:31-53: one round. -/
def requestExtensions (go : Bytes × List (List SignatureScheme) → Res TlsError (List (List SignatureScheme))) (x : Bytes × List (List SignatureScheme)) :
    Res TlsError (List (List SignatureScheme)) :=
  if x.1 = [] then .ok x.2
  else do
    let t ← slice x.1 0 2
    let s ← slice x.1 2 4
    let size := toU16 s
    match ExtensionType.new (toU16 t) with
    | none => go (x.1.drop (4 + size), x.2)
    | some .signatureAlgorithms => do
      let e ← SignatureAlgorithms.serverParse (x.1.drop 4)
      go (x.1.drop (4 + size), x.2 ++ [e])
    | some _ => go (x.1.drop 4, x.2)

/-- A call of the certificate parser: `parse`, or the loop that calls it until `sizeShould` bytes are consumed. -/
inductive X509Call
  | parse (b : X509Builder) (state : ParsingState) (consumed : Nat)
  | loop (b : X509Builder) (state : ParsingState) (consumed sizeShould : Nat)

/-- utils/x509.rs:462-626 `parse`, with the recursive calls made through `go`. -/
def x509 (data : Bytes) (go : X509Call → Res ParseError (X509Builder × Nat)) : X509Call → Res ParseError (X509Builder × Nat)
  | .parse b state consumed => do
    let (size, der, consumed) ← derParse consumed data
    let body ← slice data consumed (consumed + size)
    match der with
    | .constructed .sequence => go (.loop (b.noteSequence size) state consumed (size + consumed))
    | .constructed (.contextSpecific tag) =>
      if tag = 0 then do
        let v ← sliceFrom body 2
        let version ← Version.parse v
        .ok ({ b with version := some version }, consumed + size)
      else .ok (b, consumed + size)
    | .constructed .set => go (.parse b .inSet consumed)
    | .constructed _ => .panic
    | .primitive .integer => .ok (b.addInteger (toIbigBe body), consumed + size)
    | .primitive .objectIdentifier =>
      match state with
      | .inSet => .ok (b.addNameOid body, consumed + size)
      | .init => do
        let b ← b.addOid body
        .ok (b, consumed + size)
      | .inBitString => .panic
    | .primitive .printableString => do
      let b ← b.addString body
      .ok (b, consumed + size)
    | .primitive .utf8String => do
      let b ← b.addString body
      .ok (b, consumed + size)
    | .primitive .octetString => .panic
    | .primitive .utcTime => do
      let b ← b.addTime body
      .ok (b, consumed + size)
    | .primitive .bitString => do
      let next ← idx data (consumed + 1)
      if next = 0x30#8 then go (.loop b .inBitString (consumed + 1) (size + (consumed + 1) - 1))
      else do
        let unused ← idx data consumed
        let b ← b.addBits unused body
        .ok (b, consumed + size)
    | .primitive .null => .panic
    | .primitive _ => .err .notYetImplemented
  | .loop b state consumed sizeShould =>
    if sizeShould > consumed then do
      let (b, consumed) ← go (.parse b state consumed)
      go (.loop b state consumed sizeShould)
    else .ok (b, consumed)

end Rounds

namespace RoundsProof
open Rounds X509Proof

theorem clientExt : ∀ (n : Nat) (x : Bytes × List ClientExtension), x.1.length ≤ n → EndsWithin clientExtensions x (fromClientHelloLoop n x.1 x.2) (n + 1) := by
  intro n
  induction n with
  | zero =>
    rintro ⟨rest, acc⟩ h out m hm
    obtain rfl : rest = [] := List.eq_nil_of_length_eq_zero (by simpa using h)
    obtain ⟨k, rfl⟩ : ∃ k, m = k + 1 := ⟨m - 1, by omega⟩
    rw [Function.iterate_succ_apply']
    simp [clientExtensions, fromClientHelloLoop]
  | succ n ih =>
    rintro ⟨rest, acc⟩ h out m hm
    obtain ⟨k, rfl⟩ : ∃ k, m = k + 1 := ⟨m - 1, by omega⟩
    rw [Function.iterate_succ_apply', clientExtensions, fromClientHelloLoop]
    simp only at h ⊢
    split_ifs with h1
    · rfl
    · have hpos : 0 < rest.length := List.length_pos_iff.mpr h1
      have hd : ∀ j acc', clientExtensions^[k] out (rest.drop (4 + j), acc') = fromClientHelloLoop n (rest.drop (4 + j)) acc' :=
        fun j acc' => ih (rest.drop (4 + j), acc') (by simp only [List.length_drop]; omega) out k (by omega)
      have hd4 : ∀ acc', clientExtensions^[k] out (rest.drop 4, acc') = fromClientHelloLoop n (rest.drop 4) acc' :=
        fun acc' => ih (rest.drop 4, acc') (by simp only [List.length_drop]; omega) out k (by omega)
      simp only [hd, hd4]
      rfl

theorem serverExt : ∀ (n : Nat) (x : Bytes × List ServerExtension), x.1.length ≤ n → EndsWithin helloExtensions x (fromServerHelloLoop n x.1 x.2) (n + 1) := by
  intro n
  induction n with
  | zero =>
    rintro ⟨rest, acc⟩ h out m hm
    obtain rfl : rest = [] := List.eq_nil_of_length_eq_zero (by simpa using h)
    obtain ⟨k, rfl⟩ : ∃ k, m = k + 1 := ⟨m - 1, by omega⟩
    rw [Function.iterate_succ_apply']
    simp [helloExtensions, fromServerHelloLoop]
  | succ n ih =>
    rintro ⟨rest, acc⟩ h out m hm
    obtain ⟨k, rfl⟩ : ∃ k, m = k + 1 := ⟨m - 1, by omega⟩
    rw [Function.iterate_succ_apply', helloExtensions, fromServerHelloLoop]
    simp only at h ⊢
    split_ifs with h1
    · rfl
    · have hpos : 0 < rest.length := List.length_pos_iff.mpr h1
      have hd : ∀ j acc', helloExtensions^[k] out (rest.drop (4 + j), acc') = fromServerHelloLoop n (rest.drop (4 + j)) acc' :=
        fun j acc' => ih (rest.drop (4 + j), acc') (by simp only [List.length_drop]; omega) out k (by omega)
      have hd4 : ∀ acc', helloExtensions^[k] out (rest.drop 4, acc') = fromServerHelloLoop n (rest.drop 4) acc' :=
        fun acc' => ih (rest.drop 4, acc') (by simp only [List.length_drop]; omega) out k (by omega)
      simp only [hd, hd4]
      rfl

theorem requestExt : ∀ (n : Nat) (x : Bytes × List (List SignatureScheme)), x.1.length ≤ n → EndsWithin requestExtensions x (fromRequestLoop n x.1 x.2) (n + 1) := by
  intro n
  induction n with
  | zero =>
    rintro ⟨rest, acc⟩ h out m hm
    obtain rfl : rest = [] := List.eq_nil_of_length_eq_zero (by simpa using h)
    obtain ⟨k, rfl⟩ : ∃ k, m = k + 1 := ⟨m - 1, by omega⟩
    rw [Function.iterate_succ_apply']
    simp [requestExtensions, fromRequestLoop]
  | succ n ih =>
    rintro ⟨rest, acc⟩ h out m hm
    obtain ⟨k, rfl⟩ : ∃ k, m = k + 1 := ⟨m - 1, by omega⟩
    rw [Function.iterate_succ_apply', requestExtensions, fromRequestLoop]
    simp only at h ⊢
    split_ifs with h1
    · rfl
    · have hpos : 0 < rest.length := List.length_pos_iff.mpr h1
      have hd : ∀ j acc', requestExtensions^[k] out (rest.drop (4 + j), acc') = fromRequestLoop n (rest.drop (4 + j)) acc' :=
        fun j acc' => ih (rest.drop (4 + j), acc') (by simp only [List.length_drop]; omega) out k (by omega)
      have hd4 : ∀ acc', requestExtensions^[k] out (rest.drop 4, acc') = fromRequestLoop n (rest.drop 4) acc' :=
        fun acc' => ih (rest.drop 4, acc') (by simp only [List.length_drop]; omega) out k (by omega)
      simp only [hd, hd4]
      rfl

theorem shares (len : Nat) : ∀ (n : Nat) (x : Bytes × Nat × List KeyShareEntry), x.1.length < n → EndsWithin (keyShares len) x (KeyShare.parseLoop n x.1 x.2.1 len x.2.2) n := by
  intro n
  induction n with
  | zero => intro x h; omega
  | succ n ih =>
    rintro ⟨rest, c, acc⟩ h out m hm
    obtain ⟨k, rfl⟩ : ∃ k, m = k + 1 := ⟨m - 1, by omega⟩
    rw [Function.iterate_succ_apply', keyShares, KeyShare.parseLoop]
    simp only at h ⊢
    rcases hp : KeyShareEntry.parse rest with ⟨used, entry⟩ | e | _
    · simp only [Res.ok_bind]
      split_ifs with h1 h2
      · rfl
      · rfl
      · have hlen : 0 < rest.length := by
          rcases rest with _ | ⟨b, r⟩
          · exfalso
            revert hp
            have : KeyShareEntry.parse [] = .err .illegalParameter := rfl
            rw [this]
            intro hp
            cases hp
          · simp
        exact ih (rest.drop used, c + used, acc ++ [entry]) (by simp only [List.length_drop]; omega) out k (by omega)
    · rfl
    · rfl

theorem x509_ends (d : Bytes) (n : Nat) :
    (∀ b st c, d.length - c + 1 ≤ n → EndsWithin (x509 d) (.parse b st c) (parse n b st d c) n) ∧
    (∀ b st c e, d.length - c + 2 ≤ n → EndsWithin (x509 d) (.loop b st c e) (parseWhile n b st d c e) n) := by
  induction n with
  | zero => exact ⟨fun b st c h => by omega, fun b st c e h => by omega⟩
  | succ n ih =>
    refine ⟨?_, ?_⟩
    · intro b st c hn out m hm
      obtain ⟨k, rfl⟩ : ∃ k, m = k + 1 := ⟨m - 1, by omega⟩
      rw [Function.iterate_succ_apply', x509, parse]
      cases hd : derParse c d with
      | err e => rfl
      | panic => rfl
      | ok v =>
        obtain ⟨size, form, c'⟩ := v
        obtain ⟨a1, a2⟩ := derParse_advances hd
        simp only [Res.ok_bind]
        rw [ih.1 b .inSet c' (by omega) out k (by omega), ih.2 (b.noteSequence size) st c' (size + c') (by omega) out k (by omega),
          ih.2 b .inBitString (c' + 1) (size + (c' + 1) - 1) (by omega) out k (by omega)]
        rfl
    · intro b st c e hn out m hm
      obtain ⟨k, rfl⟩ : ∃ k, m = k + 1 := ⟨m - 1, by omega⟩
      rw [Function.iterate_succ_apply', x509, parseWhile]
      split_ifs
      · rw [ih.1 b st c (by omega) out k (by omega)]
        cases hp : parse n b st d c with
        | err e => rfl
        | panic => rfl
        | ok v =>
          obtain ⟨b1, c1⟩ := v
          have ha := (parse_advances n).1 _ _ _ _ _ _ hp
          simp only [Res.ok_bind]
          exact ih.2 b1 st c1 e (by omega) out k (by omega)
      · rfl

theorem record_size {b : Bytes} {c : Nat} {r : Record} (h : Record.fromRaw b = .ok (c, r)) : 5 ≤ c ∧ c ≤ b.length := by
  unfold Record.fromRaw at h
  split_ifs at h
  obtain ⟨_, _, h⟩ := Res.bind_eq_ok.1 h
  obtain ⟨_, _, h⟩ := Res.bind_eq_ok.1 h
  obtain ⟨_, _, h⟩ := Res.bind_eq_ok.1 h
  obtain ⟨_, _, h⟩ := Res.bind_eq_ok.1 h
  obtain ⟨b3, _, h⟩ := Res.bind_eq_ok.1 h
  obtain ⟨b4, _, h⟩ := Res.bind_eq_ok.1 h
  simp only [] at h
  split_ifs at h
  obtain ⟨_, _, h⟩ := Res.bind_eq_ok.1 h
  obtain ⟨f, hf, h⟩ := Res.bind_eq_ok.1 h
  obtain ⟨rfl, _⟩ := Prod.mk.inj (Res.ok.inj h)
  unfold slice at hf
  split_ifs at hf with h1
  omega

theorem message_size {b : Bytes} {m : Handshake} (h : Handshake.fromRaw b = .ok m) : 4 ≤ m.raw.length := by
  unfold Handshake.fromRaw at h
  split_ifs at h
  obtain ⟨_, _, h⟩ := Res.bind_eq_ok.1 h
  obtain ⟨_, _, h⟩ := Res.bind_eq_ok.1 h
  obtain ⟨_, _, h⟩ := Res.bind_eq_ok.1 h
  obtain ⟨_, _, h⟩ := Res.bind_eq_ok.1 h
  obtain ⟨_, _, h⟩ := Res.bind_eq_ok.1 h
  obtain ⟨_, _, h⟩ := Res.bind_eq_ok.1 h
  obtain ⟨raw, hr, h⟩ := Res.bind_eq_ok.1 h
  rw [← Res.ok.inj h]
  unfold slice at hr
  split_ifs at hr with h1
  rw [← Res.ok.inj hr]
  simp only [List.length_take, List.length_drop]
  omega

theorem server_records (env : ServerEnv) : ∀ (n : Nat) (rest : Bytes), rest.length ≤ n →
    EndsWithin (serverRecords env) rest (ServerHandshake.recordsLoop env n rest) (n + 1) := by
  intro n
  induction n with
  | zero =>
    intro rest h out m hm
    obtain rfl : rest = [] := List.eq_nil_of_length_eq_zero (by omega)
    obtain ⟨k, rfl⟩ : ∃ k, m = k + 1 := ⟨m - 1, by omega⟩
    rw [Function.iterate_succ_apply', serverRecords, ServerHandshake.recordsLoop]
    rfl
  | succ n ih =>
    intro rest h out m hm
    obtain ⟨k, rfl⟩ : ∃ k, m = k + 1 := ⟨m - 1, by omega⟩
    rw [Function.iterate_succ_apply', serverRecords, ServerHandshake.recordsLoop]
    split_ifs with h1
    · rfl
    · rcases hr : Record.fromRaw rest with ⟨c, r⟩ | e | _
      · have := record_size hr
        have e := ih (rest.drop c) (by rw [List.length_drop]; omega) out k (by omega)
        funext s
        show (do ServerHandshake.handleRecord env r; (serverRecords env)^[k] out (rest.drop c) : Step _ _ _) s = _
        rw [e]
        rfl
      · rfl
      · rfl

theorem client_messages (env : ClientEnv) : ∀ (n : Nat) (rest : Bytes), rest.length ≤ n →
    EndsWithin (clientMessages env) rest (ClientHandshake.messagesLoop env n rest) (n + 1) := by
  intro n
  induction n with
  | zero =>
    intro rest h out m hm
    obtain rfl : rest = [] := List.eq_nil_of_length_eq_zero (by omega)
    obtain ⟨k, rfl⟩ : ∃ k, m = k + 1 := ⟨m - 1, by omega⟩
    rw [Function.iterate_succ_apply', clientMessages, ClientHandshake.messagesLoop]
    rfl
  | succ n ih =>
    intro rest h out m hm
    obtain ⟨k, rfl⟩ : ∃ k, m = k + 1 := ⟨m - 1, by omega⟩
    rw [Function.iterate_succ_apply', clientMessages, ClientHandshake.messagesLoop]
    split_ifs with h1
    · rfl
    · have hpos : 0 < rest.length := List.length_pos_iff.mpr h1
      rcases hr : Handshake.fromRaw rest with r | e | _
      · have := message_size hr
        have e := ih (rest.drop r.raw.length) (by rw [List.length_drop]; omega) out k (by omega)
        funext s
        show (do ClientHandshake.handleMessage env r; (clientMessages env)^[k] out (rest.drop r.raw.length) : Step _ _ _) s = _
        rw [e]
        rfl
      · rfl
      · rfl

theorem client_records (env : ClientEnv) (rx : Bytes) : ∀ (n : Nat) (x : Nat × Bytes), rx.length + x.2.length + 1 ≤ n + x.1 → x.1 ≤ rx.length + x.2.length →
    EndsWithin (clientRecords env rx) x (ClientHandshake.recordsLoop env rx n x.1 x.2) n := by
  intro n
  induction n with
  | zero => intro x h h'; omega
  | succ n ih =>
    rintro ⟨offset, d⟩ h h' out m hm
    obtain ⟨k, rfl⟩ : ∃ k, m = k + 1 := ⟨m - 1, by omega⟩
    rw [Function.iterate_succ_apply', clientRecords, ClientHandshake.recordsLoop]
    simp only at h h' ⊢
    by_cases h1 : offset < rx.length ∨ d ≠ []
    · rw [if_pos h1, if_pos h1]
      rcases hv : (if d = [] then sliceFrom rx offset else sliceFrom d offset : Res TlsError Bytes) with buf | e | _
      · have hl : buf.length + offset ≤ rx.length + d.length := by
          unfold sliceFrom at hv
          split_ifs at hv
          all_goals
            rw [← Res.ok.inj hv, List.length_drop]
            omega
        funext s
        refine (Step.bind_lift_ok rfl _ s).trans (Eq.trans ?_ (Step.bind_lift_ok rfl _ s).symm)
        rcases hr : Record.fromRaw buf with ⟨c, r⟩ | e | _
        · have hs := record_size hr
          have e := ih (offset + c, d) (by simp only; omega) (by simp only; omega) out k (by omega)
          simp only []
          rw [e]
        · rfl
        · rfl
      · rfl
      · rfl
    · rw [if_neg h1, if_neg h1]

/-- The bytes and reads that are left. -/
def load (s : Socket) : Nat := (s.incoming.map List.length).sum + s.incoming.length

theorem read_load {s s' : TlsStream} {cap : Nat} {b : Bytes} (h : s.tcpRead cap = (.ok b, s')) : load s'.stream < load s.stream := by
  unfold TlsStream.tcpRead at h
  unfold load
  cases hi : s.stream.incoming with
  | nil => rw [hi] at h; cases h
  | cons c cs =>
    rw [hi] at h
    simp only [] at h
    by_cases h3 : c.take cap = []
    · rw [if_pos h3] at h
      cases (Prod.mk.inj h).1
    rw [if_neg h3] at h
    by_cases h2 : c.drop cap = []
    · rw [if_pos h2] at h
      obtain ⟨_, rfl⟩ := Prod.mk.inj h
      simp only [List.map_cons, List.sum_cons, List.length_cons]
      omega
    · rw [if_neg h2] at h
      obtain ⟨hb, rfl⟩ := Prod.mk.inj h
      have hpos : 0 < (c.take cap).length := List.length_pos_iff.mpr h3
      simp only [List.map_cons, List.sum_cons, List.length_cons, List.length_drop]
      rw [List.length_take] at hpos
      omega

theorem read_le {s : TlsStream} {cap : Nat} : load (s.tcpRead cap).2.stream ≤ load s.stream := by
  unfold TlsStream.tcpRead load
  cases hi : s.stream.incoming with
  | nil => simp [hi]
  | cons c cs =>
    simp only []
    split_ifs <;> simp only [List.map_cons, List.sum_cons, List.length_cons, List.length_drop] <;> omega

theorem writeAll_in (s : Socket) (b : Bytes) : (s.writeAll b).2.incoming = s.incoming := by
  unfold Socket.writeAll
  split_ifs
  · rfl
  · split <;> rfl

theorem write_in (s : Socket) (b : Bytes) : (s.write b).2.incoming = s.incoming := by
  unfold Socket.write
  split
  all_goals first
    | rfl
    | (split_ifs <;> rfl)

theorem flush_in (s : TlsStream) : s.flush.2.stream.incoming = s.stream.incoming := by
  unfold TlsStream.flush
  have := writeAll_in s.stream s.buffer
  rcases hw : s.stream.writeAll s.buffer with ⟨_ | _, sock⟩
  · rw [hw] at this; exact this
  · rw [hw] at this; exact this

theorem protect_in (s : TlsStream) (r : Record) : (s.protectRecord r).2.stream = s.stream := by
  unfold TlsStream.protectRecord
  cases s.protection with
  | none => rfl
  | some p =>
    rfl

theorem writeRecord_in (s : TlsStream) (t : RecordType) (d : Bytes) : (s.writeRecord t d).2.stream.incoming = s.stream.incoming := by
  unfold TlsStream.writeRecord
  have := protect_in s (Record.new t d)
  rcases hw : s.protectRecord (Record.new t d) with ⟨raw | _ | _, s'⟩
  · rw [hw] at this
    simp only [] at this ⊢
    split_ifs
    · rw [flush_in]
      simp only [this]
    · simp only [this]
  · rw [hw] at this; simp only [] at this ⊢; rw [this]
  · rw [hw] at this; simp only [] at this ⊢; rw [this]

theorem server_load (env : ServerEnv) (n : Nat) : ServerProof.Keeps env fun h => load h.stream.stream ≤ n where
  write t d _ := by
    intro h hh
    show load (h.stream.writeRecord t d).2.stream ≤ n
    unfold load at hh ⊢
    rw [writeRecord_in]
    exact hh
  read := fun h hh => le_trans (read_le (s := h.stream) (cap := 4096)) hh
  flush := by
    intro h hh
    show load (h.stream.flush).2.stream ≤ n
    unfold load at hh ⊢
    rw [flush_in]
    exact hh
  protect h p hh := hh
  log1 p r := by
    unfold ServerHandshake.logHandshakeSecrets
    split
    · exact Step.Pres.modify fun _ hh => hh
    · exact Step.Pres.pure _
  log2 p := by
    intro h hh
    unfold ServerHandshake.logApplicationSecrets
    split
    · exact hh
    · exact hh
  frame h h' e _ _ hh := by
    rw [e]; exact hh

theorem client_load (env : ClientEnv) (n : Nat) : ClientProof.Keeps env fun h => load h.stream.stream ≤ n where
  hello d := by
    intro h hh
    show load (h.stream.tcpWrite _).2.stream ≤ n
    unfold load at hh ⊢
    have : (h.stream.tcpWrite (Record.new .handshake d).asBytes).2.stream.incoming = h.stream.stream.incoming := by
      unfold TlsStream.tcpWrite
      have := write_in h.stream.stream (Record.new .handshake d).asBytes
      rcases hw : h.stream.stream.write (Record.new .handshake d).asBytes with ⟨_ | _, sock⟩
      · rw [hw] at this; exact this
      · rw [hw] at this; exact this
    rw [this]
    exact hh
  write t d _ := by
    intro h hh
    show load (h.stream.writeRecord t d).2.stream ≤ n
    unfold load at hh ⊢
    rw [writeRecord_in]
    exact hh
  read := fun h hh => le_trans (read_le (s := h.stream) (cap := 2048)) hh
  flush := by
    intro h hh
    show load (h.stream.flush).2.stream ≤ n
    unfold load at hh ⊢
    rw [flush_in]
    exact hh
  protect h p hh := hh
  log1 p := by
    unfold ClientHandshake.logHandshakeSecrets
    pres
    all_goals exact Step.Pres.modify fun _ hh => hh
  log2 p := by
    intro h hh
    unfold ClientHandshake.logApplicationSecrets
    split
    · exact hh
    · exact hh
  frame h h' e _ _ hh := by
    rw [e]; exact hh

theorem server_reads (env : ServerEnv) : ∀ (n : Nat) (h : ServerHandshake), load h.stream.stream < n → EndsWithin (serverReads env) h (ServerHandshake.readLoop env n h) n := by
  intro n
  induction n with
  | zero => intro h hl; omega
  | succ n ih =>
    intro h hl out m hm
    obtain ⟨k, rfl⟩ : ∃ k, m = k + 1 := ⟨m - 1, by omega⟩
    rw [Function.iterate_succ_apply', serverReads, ServerHandshake.readLoop, Step.bind_get, Step.bind_get]
    by_cases hst : h.state = .ready
    · rw [if_pos hst, if_pos hst]
    · rw [if_neg hst, if_neg hst, Step.bind_eq, Step.bind_eq]
      rcases hr : ServerHandshake.onStream (fun s => s.tcpRead 4096) h with ⟨rx | e | _, h1⟩
      · have hl1 : load h1.stream.stream < n := by
          unfold ServerHandshake.onStream at hr
          simp only [] at hr
          rcases ht : h.stream.tcpRead 4096 with ⟨r, s'⟩
          rw [ht] at hr
          obtain ⟨rfl, rfl⟩ := Prod.mk.inj hr
          have := read_load ht
          simp only []
          omega
        simp only []
        rw [Step.bind_eq, Step.bind_eq]
        have hp := (server_load env (load h1.stream.stream)).records rx.length rx h1 (Nat.le_refl _)
        rcases hr2 : ServerHandshake.recordsLoop env rx.length rx h1 with ⟨_ | e | _, h2⟩
        · rw [hr2] at hp
          simp only [] at hp ⊢
          rw [Step.bind_eq]
          refine Eq.trans (Step.bind_eq ..) ?_
          have hp2 := (server_load env (load h2.stream.stream)).flush h2 (Nat.le_refl _)
          rcases hr3 : ServerHandshake.onStream TlsStream.flush h2 with ⟨_ | e | _, h3⟩
          · rw [hr3] at hp2
            simp only [] at hp2 ⊢
            exact ih h3 (by omega) out k (by omega)
          · rfl
          · rfl
        · rfl
        · rfl
      · rfl
      · rfl

theorem client_reads (env : ClientEnv) : ∀ (n : Nat) (x : Bytes × ClientHandshake), load x.2.stream.stream < n →
    EndsWithin (clientReads env) x (ClientHandshake.readLoop env n x.1 x.2) n := by
  intro n
  induction n with
  | zero => intro h hl; omega
  | succ n ih =>
    rintro ⟨d, h⟩ hl out m hm
    obtain ⟨k, rfl⟩ : ∃ k, m = k + 1 := ⟨m - 1, by omega⟩
    rw [Function.iterate_succ_apply', clientReads, ClientHandshake.readLoop, Step.bind_get, Step.bind_get]
    by_cases hst : h.state = .ready
    · rw [if_pos hst, if_pos hst]
    · rw [if_neg hst, if_neg hst, Step.bind_eq, Step.bind_eq]
      rcases hr : ClientHandshake.onStream (fun s => s.tcpRead 2048) h with ⟨rx | e | _, h1⟩
      · have hl1 : load h1.stream.stream < n := by
          unfold ClientHandshake.onStream at hr
          simp only [] at hr
          rcases ht : h.stream.tcpRead 2048 with ⟨r, s'⟩
          rw [ht] at hr
          obtain ⟨rfl, rfl⟩ := Prod.mk.inj hr
          have := read_load ht
          simp only [] at hl ⊢
          omega
        simp only []
        obtain ⟨d', hd'⟩ : ∃ d' : Bytes, d' = if d = [] then [] else d ++ rx := ⟨_, rfl⟩
        rw [← hd', Step.bind_eq, Step.bind_eq]
        have hp := (client_load env (load h1.stream.stream)).records rx (rx.length + d'.length + 1) 0 d' h1 (Nat.le_refl _)
        rcases hr2 : ClientHandshake.recordsLoop env rx (rx.length + d'.length + 1) 0 d' h1 with ⟨d2 | e | _, h2⟩
        · rw [hr2] at hp
          simp only [] at hp ⊢
          rw [Step.bind_eq]
          refine Eq.trans (Step.bind_eq ..) ?_
          have hp2 := (client_load env (load h2.stream.stream)).flush h2 (Nat.le_refl _)
          rcases hr3 : ClientHandshake.onStream TlsStream.flush h2 with ⟨_ | e | _, h3⟩
          · rw [hr3] at hp2
            simp only [] at hp2 ⊢
            exact ih (d2, h3) (by simp only; omega) out k (by omega)
          · rfl
          · rfl
        · rfl
        · rfl
      · rfl
      · rfl

end RoundsProof

open Rounds RoundsProof

/-- C84, the handshakes: the loop over the reads of `accept` and that of `connect` end, in every state and whatever arrives, after at most as many
rounds as there are bytes and reads (and two). -/
theorem C84_handshakes :
    (∀ (env : ServerEnv) (h : ServerHandshake), EndsWithin (serverReads env) h (ServerHandshake.doHandshake env h)
      ((h.stream.stream.incoming.map List.length).sum + h.stream.stream.incoming.length + 2)) ∧
    (∀ (env : ClientEnv) (h h' : ClientHandshake), ClientHandshake.sendClientHello env h = (.ok (), h') →
      EndsWithin (clientReads env) ([], h') (ClientHandshake.doHandshake env h) ((h'.stream.stream.incoming.map List.length).sum + h'.stream.stream.incoming.length + 2)) := by
  refine ⟨fun env h => server_reads env _ h (by unfold load; omega), fun env h h' hs => ?_⟩
  have : ClientHandshake.doHandshake env h = ClientHandshake.readLoop env ((h'.stream.stream.incoming.map List.length).sum + h'.stream.stream.incoming.length + 2) [] h' := by
    unfold ClientHandshake.doHandshake
    exact Step.bind_of_ok hs
  rw [this]
  exact client_reads env _ ([], h') (by simp only [load]; omega)

/-- The hypothesis of the second half: the client sends its ClientHello whenever the random source gives it a scalar, and then reads. -/
example (env : ClientEnv) (hname : env.config.serverName = some (ascii "anothertls.local")) :
    ∃ h h', ClientHandshake.sendClientHello env h = (.ok (), h') := by
  obtain ⟨g, rng, random, _, h⟩ := ClientProof.hello_of (env := env) (reads := [zeros 100, zeros 100, zeros 100]) (n := 256)
    ⟨_, _, _, zeros 32, zeros 32, example_between.1, rfl, rfl, by simp [zeros], by simp [zeros], by norm_num, by norm_num, by rw [hname]⟩
  exact ⟨_, _, h⟩

/-- C84, the records and messages of one read: every round takes at least five bytes (a record) or four (a message). -/
theorem C84_records :
    (∀ (env : ServerEnv) (rx : Bytes), EndsWithin (serverRecords env) rx (ServerHandshake.recordsLoop env rx.length rx) (rx.length + 1)) ∧
    (∀ (env : ClientEnv) (rx kept : Bytes), EndsWithin (clientRecords env rx) (0, kept) (ClientHandshake.recordsLoop env rx (rx.length + kept.length + 1) 0 kept)
      (rx.length + kept.length + 1)) ∧
    (∀ (env : ClientEnv) (content : Bytes), EndsWithin (clientMessages env) content (ClientHandshake.messagesLoop env content.length content) (content.length + 1)) :=
  ⟨fun env rx => server_records env _ rx (Nat.le_refl _), fun env rx kept => client_records env rx _ (0, kept) (by simp) (by simp),
    fun env content => client_messages env _ content (Nat.le_refl _)⟩

/-- C84, the parsers of the hellos and of the certificate request. -/
theorem C84_hellos (buf : Bytes) :
    EndsWithin clientExtensions (buf, []) (ClientExtension.fromClientHello buf) (buf.length + 1) ∧
    EndsWithin helloExtensions (buf, []) (ServerExtension.fromServerHello buf) (buf.length + 1) ∧
    EndsWithin requestExtensions (buf, []) (CertificateRequestExtensions.fromRequest buf) (buf.length + 1) ∧
    (∀ consumed len, EndsWithin (keyShares len) (buf, consumed, []) (KeyShare.parseLoop (buf.length + 1) buf consumed len []) (buf.length + 1)) :=
  ⟨clientExt _ (buf, []) (Nat.le_refl _), serverExt _ (buf, []) (Nat.le_refl _), requestExt _ (buf, []) (Nat.le_refl _),
    fun consumed len => shares len _ (buf, consumed, []) (Nat.lt_succ_self _)⟩

/-- C84, the certificate parser: its recursion is no deeper than the certificate is long. -/
theorem C84_certificates (data : Bytes) (b : X509Builder) (state : ParsingState) :
    EndsWithin (x509 data) (.parse b state 0) (parse (data.length + 1) b state data 0) (data.length + 1) :=
  (x509_ends data (data.length + 1)).1 b state 0 (by omega)

end ATLS
