import Verif.Spec.Sealed
import Verif.Proof.Wraps
import Verif.Proof.Server
import Verif.Proof.Client
import Verif.Proof.Ccs
/-
Supporting lemmas for C110: what a handshake sends outside of protected records.
-/
namespace ATLS.ClearProof
open ATLS ATLS.Model ATLS.Spec FlowProof RecProof KsProof

/-- The library's AEADs. -/
def Library (a : Tls13.Seal) : Prop := ∃ c, a = aead c

theorem encrypt_sealed {p p' : RecordPayloadProtection} {record : Record} {b : Bytes} (h : p.encrypt record = (.ok b, p')) : Tls13.AllSealed Library b := by
  unfold RecordPayloadProtection.encrypt at h
  simp only [] at h
  split at h
  · cases h
  · cases h
  · next nonce key q _ =>
    split at h
    · cases h
    · cases h
    · next ct tag he =>
      obtain ⟨inner, hi⟩ : ∃ inner, inner = record.fraqment ++ [record.contentType.code] := ⟨_, rfl⟩
      rw [← hi] at h he
      have e : [RecordType.applicationData.code, 3#8, 3#8, BitVec.ofNat 8 ((inner.length + 16) / 256), BitVec.ofNat 8 (inner.length + 16)] = Tls13.protectedHeader inner.length := by
        unfold Tls13.protectedHeader
        rw [beBytes2]
        rfl
      rw [e] at h he
      have := Tls13.AllSealed.cons (seals := Library) (aead p.cipher) key nonce inner ct tag [] ⟨_, rfl⟩ (by unfold aead; rw [he]) .nil
      rw [List.append_nil] at this
      cases h
      exact this

/-- The stream has keys; what it has sent and will send begins with (parts of) `C`, and what follows is protected. -/
structure Under (C : Bytes) (s : TlsStream) : Prop where
  keys : s.protection.isSome
  calm : s.stream.failures = []
  parts : ∃ C1 C2 B B', C = C1 ++ C2 ∧ s.stream.written = C1 ++ B ∧ s.buffer = C2 ++ B' ∧ Tls13.AllSealed Library B ∧ Tls13.AllSealed Library B' ∧ (B ≠ [] → C2 = [])

variable {C : Bytes} {s : TlsStream}

theorem Under.flush (h : Under C s) : Under C s.flush.2 := by
  obtain ⟨C1, C2, B, B', e1, e2, e3, e4, e5, e6⟩ := h.parts
  unfold TlsStream.flush Socket.writeAll
  rw [h.calm]
  split_ifs with hb
  · have hb' : s.buffer = [] := hb
    refine ⟨h.keys, h.calm, C1, C2, B, B', e1, e2, ?_, e4, e5, e6⟩
    show ([] : Bytes) = _
    rw [← e3, hb']
  · refine ⟨h.keys, rfl, C, [], ?_⟩
    by_cases hB : B = []
    · subst hB
      exact ⟨B', [], by simp, by simp [e1, e2, e3], rfl, e5, .nil, fun _ => rfl⟩
    · have h2 := e6 hB
      subst h2
      exact ⟨B ++ B', [], by simp, by simp [e1, e2, e3], rfl, e4.append e5, .nil, fun _ => rfl⟩

theorem Under.protect (h : Under C s) (p : RecordPayloadProtection) : Under C (s.setProtection (some p)) := ⟨rfl, h.calm, h.parts⟩

theorem Under.write (h : Under C s) (t : RecordType) (data : Bytes) : Under C (s.writeRecord t data).2 := by
  unfold TlsStream.writeRecord TlsStream.protectRecord
  obtain ⟨p, hp⟩ := Option.isSome_iff_exists.1 h.keys
  rw [hp]
  simp only []
  rcases he : p.encrypt (Record.new t data) with ⟨r, p'⟩
  cases r with
  | err e => exact h.protect p'
  | panic => exact h.protect p'
  | ok b =>
    simp only []
    obtain ⟨C1, C2, B, B', e1, e2, e3, e4, e5, e6⟩ := h.parts
    have hu : Under C { s with protection := some p', buffer := s.buffer ++ b } :=
      ⟨rfl, h.calm, C1, C2, B, B' ++ b, e1, e2, by simp [e3], e4, e5.append (encrypt_sealed he), e6⟩
    split_ifs
    · exact hu.flush
    · exact hu

theorem Under.read (h : Under C s) (cap : Nat) : Under C (s.tcpRead cap).2 := by
  unfold TlsStream.tcpRead
  split
  · exact h
  · simp only []
    split_ifs <;> exact ⟨h.keys, h.calm, h.parts⟩

/-- Where keys come in. -/
theorem Under.start (p : RecordPayloadProtection) (h : s.stream.failures = []) : Under (s.stream.written ++ s.buffer) (s.setProtection (some p)) :=
  ⟨rfl, h, _, _, [], [], rfl, by simp [TlsStream.setProtection], by simp [TlsStream.setProtection], .nil, .nil, fun h => absurd rfl h⟩

/-- What was sent when there is one alert at most to follow. -/
theorem Under.alert (h : Under C s) (e : TlsError) : ∃ C1 B, C1 <+: C ∧ (s.writeAlert e).2.stream.written = C1 ++ B ∧ Tls13.AllSealed Library B := by
  unfold TlsStream.writeAlert TlsStream.protectRecord
  obtain ⟨p, hp⟩ := Option.isSome_iff_exists.1 h.keys
  obtain ⟨C1, C2, B, B', e1, e2, e3, e4, e5, e6⟩ := h.parts
  rw [hp]
  simp only []
  rcases he : p.encrypt (Record.new .alert [(AlertLevel.getFromError e).code, e.asU8]) with ⟨r, p'⟩
  cases r with
  | err e => exact ⟨C1, B, ⟨C2, e1.symm⟩, e2, e4⟩
  | panic => exact ⟨C1, B, ⟨C2, e1.symm⟩, e2, e4⟩
  | ok b =>
    simp only [Socket.writeAll, h.calm]
    split_ifs
    · exact ⟨C1, B, ⟨C2, e1.symm⟩, e2, e4⟩
    · exact ⟨C1, B ++ b, ⟨C2, e1.symm⟩, by simp [e2], e4.append (encrypt_sealed he)⟩

theorem Under.sent (h : Under C s) : ∃ C1 B, C1 <+: C ∧ s.stream.written = C1 ++ B ∧ Tls13.AllSealed Library B ∧ (s.buffer = [] → C1 = C) := by
  obtain ⟨C1, C2, B, B', e1, e2, e3, e4, e5, e6⟩ := h.parts
  refine ⟨C1, B, ⟨C2, e1.symm⟩, e2, e4, fun hb => ?_⟩
  rw [hb] at e3
  rw [e1, (List.append_eq_nil_iff.1 e3.symm).1, List.append_nil]

/-- Two runs from the same state: the same outcome of both, and after a success `F` holds; or both have come to the same keys. -/
def Both {σ α : Type} (F : σ → Prop) (S : σ → TlsStream) (x y : Res TlsError α × σ) : Prop :=
  (x = y ∧ ∀ a, x.1 = .ok a → F x.2) ∨ ∃ C, Under C (S x.2) ∧ Under C (S y.2)

section
variable {σ α β : Type} {F : σ → Prop} {S : σ → TlsStream} {f g : α → Step σ TlsError β} {s : σ}

theorem Both.lift {r : Res TlsError α} (h : ∀ a, r = .ok a → Both F S (f a s) (g a s)) :
    Both F S ((Step.lift r >>= f) s) ((Step.lift r >>= g) s) := by
  cases r with
  | ok a => exact h a rfl
  | err e => exact .inl ⟨rfl, fun a h => by cases h⟩
  | panic => exact .inl ⟨rfl, fun a h => by cases h⟩

theorem Both.seq {m m' : Step σ TlsError α} {F' : σ → Prop} (h : Both F' S (m s) (m' s)) (hs : ∀ a s', m s = (.ok a, s') → F' s' → Both F S (f a s') (g a s'))
    (hf : ∀ C a s', m s = (.ok a, s') → Under C (S s') → Under C (S (f a s').2)) (hg : ∀ C a s', m' s = (.ok a, s') → Under C (S s') → Under C (S (g a s').2)) :
    Both F S ((m >>= f) s) ((m' >>= g) s) := by
  rw [Step.bind_eq, Step.bind_eq]
  rcases hm : m s with ⟨r, s1⟩
  rcases hm' : m' s with ⟨r', s2⟩
  rw [hm, hm'] at h
  rcases h with ⟨he, hn⟩ | ⟨C, h1, h2⟩
  · cases he
    cases r with
    | ok a => exact hs a s1 hm (hn a rfl)
    | err e => exact .inl ⟨rfl, fun a h => by cases h⟩
    | panic => exact .inl ⟨rfl, fun a h => by cases h⟩
  · refine .inr ⟨C, ?_, ?_⟩
    · cases r with
      | ok a => exact hf C a s1 hm h1
      | err e => exact h1
      | panic => exact h1
    · cases r' with
      | ok a => exact hg C a s2 hm' h2
      | err e => exact h2
      | panic => exact h2

theorem Both.same {m : Step σ TlsError α} (h : ∀ a s', m s = (.ok a, s') → Both F S (f a s') (g a s')) : Both F S ((m >>= f) s) ((m >>= g) s) := by
  rw [Step.bind_eq, Step.bind_eq]
  rcases hm : m s with ⟨r, s'⟩
  cases r with
  | ok a => exact h a s' hm
  | err e => exact .inl ⟨rfl, fun a h => by cases h⟩
  | panic => exact .inl ⟨rfl, fun a h => by cases h⟩

end

/-! ### The server -/

section Server
open ServerHandshake ServerProof

theorem server_wraps (env : ServerEnv) (C : Bytes) : Wraps env (fun h => Under C h.stream) where
  write t data _ h hs := hs.write t data
  read h hs := hs.read 4096
  flush h hs := hs.flush
  protect h p hs := hs.protect p
  log1 p r h hs := by
    unfold logHandshakeSecrets
    rcases env.config.keylog with _ | f <;> rcases p with _ | p <;> exact hs
  log2 p h hs := by
    show Under C (logApplicationSecrets p h).2.stream
    unfold logApplicationSecrets
    rcases h.keylog with _ | k <;> exact hs
  frame h h' e _ _ hs := by rw [e]; exact hs

theorem write_calm (t : RecordType) (data : Bytes) : Step.Pres (fun h => h.stream.stream.failures = []) (writeRecord t data) := by
  intro h hs
  show (h.stream.writeRecord t data).2.stream.failures = []
  unfold TlsStream.writeRecord TlsStream.protectRecord TlsStream.flush Socket.writeAll
  rcases h.stream.protection with _ | p
  · simp only [hs]
    split_ifs <;> simp [hs]
  · simp only []
    rcases p.encrypt (Record.new t data) with ⟨r, p'⟩
    cases r <;> simp only [hs]
    split_ifs <;> simp [hs]

theorem hello_both {env env' : ServerEnv} (hn : env'.config.serverName = env.config.serverName) (record : Record) {h : ServerHandshake} (hc : h.stream.stream.failures = []) :
    Both (fun _ => False) (·.stream) (handleClientHello env record h) (handleClientHello env' record h) := by
  unfold handleClientHello
  refine Both.lift fun handshake _ => ?_
  split_ifs
  · exact .inl ⟨rfl, fun a h => by cases h⟩
  refine Both.lift fun ch _ => ?_
  rw [Step.bind_get, Step.bind_get, hn]
  refine Both.lift fun ⟨sh, pk, rng⟩ _ => ?_
  simp only []
  rw [Step.bind_modify, Step.bind_modify]
  refine Both.lift fun t _ => ?_
  refine Both.lift fun body _ => ?_
  refine Both.same fun u h1 e1 => ?_
  have c1 : h1.stream.stream.failures = [] := by
    have := write_calm .handshake (Handshake.toBytes .serverHello body) { h with rng := rng } hc
    rw [e1] at this
    exact this
  refine Both.same fun u h2 e2 => ?_
  have c2 : h2.stream.stream.failures = [] := by
    unfold sendChangeCipherSpec at e2
    split_ifs at e2
    · have := write_calm .changeCipherSpec [1#8] _ c1
      rw [e2] at this
      exact this
    · cases e2
      exact c1
  refine Both.lift fun kse _ => ?_
  refine Both.lift fun ks _ => ?_
  refine Both.lift fun c _ => ?_
  refine Both.lift fun protection ep => ?_
  obtain ⟨w, _, k1, _⟩ := new_ok ks c false
  rw [k1] at ep
  have ep := Res.ok.inj ep
  subst ep
  right
  refine ⟨h2.stream.stream.written ++ h2.stream.buffer, ?_⟩
  have key : ∀ env : ServerEnv, Under (h2.stream.stream.written ++ h2.stream.buffer)
      ((do logHandshakeSecrets env (some ⟨ks, c, w, false, none⟩) ch.random; setProtection (some ⟨ks, c, w, false, none⟩); sendFlight env ((((TsHash.new t).update record.fraqment)).update (Handshake.toBytes .serverHello body)) : M Unit) h2).2.stream := by
    intro env
    rcases hl : logHandshakeSecrets env (some ⟨ks, c, w, false, none⟩) ch.random h2 with ⟨r, h3⟩
    have hst : r = .ok () ∧ h3.stream = h2.stream := by
      unfold logHandshakeSecrets at hl
      generalize env.config.keylog = kl at hl
      rcases kl with _ | f <;> cases hl <;> exact ⟨rfl, rfl⟩
    obtain ⟨rfl, hst⟩ := hst
    rw [Step.bind_of_ok hl]
    unfold ServerHandshake.setProtection
    rw [Step.bind_modify]
    refine (server_wraps env _).flight _ _ ?_
    show Under _ (h3.stream.setProtection _)
    rw [hst]
    exact Under.start _ c2
  exact ⟨key env, key env'⟩

theorem record_both {env env' : ServerEnv} (hn : env'.config.serverName = env.config.serverName) (record : Record) {h : ServerHandshake} (hc : h.stream.stream.failures = [])
    (hs : h.state = .clientHello) : Both (fun _ => False) (·.stream) (handleRecord env record h) (handleRecord env' record h) := by
  unfold handleRecord
  rw [Step.bind_get, Step.bind_get]
  rw [hs]
  cases record.contentType <;> simp only [ne_eq, reduceCtorEq, not_false_eq_true, not_true_eq_false, if_true, if_false]
  case handshake => exact hello_both hn record hc
  case alert => exact Both.lift fun _ _ => .inl ⟨rfl, fun a h => by cases h⟩
  all_goals exact .inl ⟨rfl, fun a h => by cases h⟩

theorem record_under {env : ServerEnv} {record : Record} {h : ServerHandshake} (hs : h.state ≠ .clientHello) (hu : Under C h.stream) : Under C (handleRecord env record h).2.stream := by
  unfold handleRecord
  rw [Step.bind_get]
  have he := (server_wraps env C).encrypted record h hu
  cases record.contentType <;> simp only [if_neg hs]
  case changeCipherSpec => exact hu
  case alert => exact (Step.Pres.bind (Step.Pres.lift _) fun _ => Step.Pres.throw _ : Step.Pres (fun h : ServerHandshake => Under C h.stream) _) h hu
  all_goals
    generalize hst : h.state = st at hs ⊢
    cases st <;> first | exact absurd rfl hs | exact hu | exact he

theorem records_under {env : ServerEnv} : ∀ (fuel : Nat) (rest : Bytes) (h : ServerHandshake), Begun h → Under C h.stream →
    Under C (recordsLoop env fuel rest h).2.stream := by
  intro fuel
  induction fuel with
  | zero =>
    intro rest h _ hu
    unfold recordsLoop
    split_ifs <;> exact hu
  | succ n ih =>
    intro rest h hb hu
    unfold recordsLoop
    split_ifs
    · exact hu
    cases hr : Record.fromRaw rest with
    | err e => exact hu
    | panic => exact hu
    | ok a =>
      obtain ⟨consumed, record⟩ := a
      rw [Step.bind_lift_ok rfl]
      simp only []
      rw [Step.bind_eq]
      have h1 := record_under (env := env) (record := record) hb hu
      rcases hg : handleRecord env record h with ⟨r, h'⟩
      rw [hg] at h1
      cases r with
      | err e => exact h1
      | panic => exact h1
      | ok u => exact ih _ h' (record_begun hg) h1

theorem records_begun {env : ServerEnv} : ∀ {fuel : Nat} {rest : Bytes} {h h' : ServerHandshake}, Begun h → recordsLoop env fuel rest h = (.ok (), h') → Begun h' := by
  intro fuel
  induction fuel with
  | zero =>
    intro rest h h' hb hw
    unfold recordsLoop at hw
    split_ifs at hw <;> cases hw
    exact hb
  | succ n ih =>
    intro rest h h' hb hw
    unfold recordsLoop at hw
    split_ifs at hw
    · cases hw
      exact hb
    slift hw with ⟨a, _, hw⟩
    sbind hw with ⟨u, h1, e1, hw⟩
    exact ih (record_begun e1) hw

theorem reads_under {env : ServerEnv} : ∀ (fuel : Nat) (h : ServerHandshake), Begun h → Under C h.stream →
    Under C (readLoop env fuel h).2.stream := by
  intro fuel
  induction fuel with
  | zero => exact fun h _ hu => hu
  | succ n ih =>
    intro h hb hu
    unfold readLoop
    rw [Step.bind_get]
    split_ifs
    · exact hu
    rw [Step.bind_eq]
    have h1 := (server_wraps env C).read h hu
    have b1 := Begun.stream (fun s => s.tcpRead 4096) h hb
    rcases hg : onStream (fun s => s.tcpRead 4096) h with ⟨r, h'⟩
    rw [hg] at h1 b1
    cases r with
    | err e => exact h1
    | panic => exact h1
    | ok rx =>
      simp only []
      rw [Step.bind_eq]
      have h2 := records_under (env := env) rx.length rx h' b1 h1
      rcases hg2 : recordsLoop env rx.length rx h' with ⟨r, h''⟩
      rw [hg2] at h2
      cases r with
      | err e => exact h2
      | panic => exact h2
      | ok u =>
        simp only []
        have b2 := records_begun b1 hg2
        have h3 := (server_wraps env C).flush h'' h2
        have b3 := Begun.stream TlsStream.flush h'' b2
        rw [Step.bind_eq]
        rcases hg3 : onStream TlsStream.flush h'' with ⟨r, h3'⟩
        rw [hg3] at h3 b3
        cases r with
        | err e => exact h3
        | panic => exact h3
        | ok u => exact ih h3' b3 h3

theorem reads_both {env env' : ServerEnv} (hn : env'.config.serverName = env.config.serverName) (fuel : Nat) {h : ServerHandshake}
    (hc : h.stream.stream.failures = []) (hs : h.state = .clientHello) : Both (fun _ => False) (·.stream) (readLoop env fuel h) (readLoop env' fuel h) := by
  cases fuel with
  | zero => exact .inl ⟨rfl, fun a h => by cases h⟩
  | succ n =>
    unfold readLoop
    rw [Step.bind_get, Step.bind_get, if_neg (by rw [hs]; simp), if_neg (by rw [hs]; simp)]
    refine Both.same fun rx h1 e1 => ?_
    have hrd : h1.stream.stream.failures = [] ∧ h1.state = .clientHello ∧ rx ≠ [] := by
      unfold onStream TlsStream.tcpRead at e1
      rcases hi : h.stream.stream.incoming with _ | ⟨c, cs⟩ <;> simp only [hi] at e1
      · cases e1
      · split_ifs at e1 with hg <;> cases e1 <;> exact ⟨hc, hs, hg⟩
    obtain ⟨c1, s1, hrx⟩ := hrd
    have hrec : Both (fun _ => False) (·.stream) (recordsLoop env rx.length rx h1) (recordsLoop env' rx.length rx h1) := by
      obtain ⟨m, hm⟩ : ∃ m, rx.length = m + 1 := ⟨rx.length - 1, by have := List.length_pos_of_ne_nil hrx; omega⟩
      rw [hm]
      unfold recordsLoop
      rw [if_neg hrx, if_neg hrx]
      refine Both.lift fun ⟨consumed, record⟩ _ => ?_
      simp only []
      exact Both.seq (record_both hn record c1 s1) (fun _ _ _ h => h.elim) (fun C u h2 e2 hu => records_under _ _ _ (record_begun e2) hu) (fun C u h2 e2 hu => records_under _ _ _ (record_begun e2) hu)
    have rest : ∀ (env : ServerEnv) (C : Bytes) (u : Unit) (h2 : ServerHandshake), recordsLoop env rx.length rx h1 = (.ok u, h2) → Under C h2.stream →
        Under C ((onStream TlsStream.flush >>= fun _ => readLoop env n : M Unit) h2).2.stream := by
      intro env C u h2 e2 hu
      have hb : Begun h2 := by
        obtain ⟨m, hm⟩ : ∃ m, rx.length = m + 1 := ⟨rx.length - 1, by have := List.length_pos_of_ne_nil hrx; omega⟩
        rw [hm] at e2
        unfold recordsLoop at e2
        rw [if_neg hrx] at e2
        slift e2 with ⟨a, _, e2⟩
        sbind e2 with ⟨v, h3, e3, e2⟩
        exact records_begun (record_begun e3) e2
      rw [Step.bind_eq]
      have h3 := (server_wraps env C).flush h2 hu
      have b3 := Begun.stream TlsStream.flush h2 hb
      rcases hg3 : onStream TlsStream.flush h2 with ⟨r, h3'⟩
      rw [hg3] at h3 b3
      cases r with
      | err e => exact h3
      | panic => exact h3
      | ok u => exact reads_under _ h3' b3 h3
    exact Both.seq hrec (fun _ _ _ h => h.elim) (rest env) (rest env')

theorem reads_flushed {env : ServerEnv} : ∀ (fuel : Nat) {h h' : ServerHandshake}, (h.state = .ready → h.stream.buffer = []) → readLoop env fuel h = (.ok (), h') → h'.stream.buffer = [] := by
  intro fuel
  induction fuel with
  | zero =>
    intro h h' _ hw
    cases hw
  | succ n ih =>
    intro h h' hb hw
    unfold readLoop at hw
    rw [Step.bind_get] at hw
    split_ifs at hw with hr
    · cases hw
      exact hb hr
    sbind hw with ⟨rx, h1, _, hw⟩
    sbind hw with ⟨u, h2, _, hw⟩
    sbind hw with ⟨u, h3, e3, hw⟩
    refine ih (fun _ => ?_) hw
    unfold onStream TlsStream.flush at e3
    generalize h2.stream.stream.writeAll h2.stream.buffer = x at e3
    rcases x with ⟨b, sock⟩
    cases b <;> cases e3
    rfl

end Server

/-! ### The client -/

section Client
open ClientHandshake ClientProof

theorem client_wraps (env : ClientEnv) (C : Bytes) : ClientProof.Wraps env (fun h => Under C h.stream) where
  write t data _ h hs := hs.write t data
  read h hs := hs.read 2048
  flush h hs := hs.flush
  protect h p hs := hs.protect p
  log1 p h hs := by
    unfold logHandshakeSecrets
    rcases env.config.keylog with _ | f <;> rcases p with _ | p
    · exact hs
    · exact hs
    · exact hs
    · simp only []
      rw [Step.bind_get]
      rcases h.clientHelloRandom with _ | r <;> exact hs
  log2 p h hs := by
    show Under C (logApplicationSecrets p h).2.stream
    unfold logApplicationSecrets
    rcases h.keylog with _ | k <;> exact hs
  frame h h' e _ _ hs := by rw [e]; exact hs

/-- Nothing was received. -/
structure Fresh (h : ClientHandshake) : Prop where
  state : h.state = .serverHello
  calm : h.stream.stream.failures = []
  random : h.clientHelloRandom.isSome
  keys : h.stream.protection = none

theorem serverHello_both {env env' : ClientEnv} (record : Record) {h : ClientHandshake} (hf : Fresh h) :
    Both (fun _ => False) (·.stream) (handleServerHello env record h) (handleServerHello env' record h) := by
  unfold handleServerHello
  refine Both.lift fun handshake _ => ?_
  split_ifs
  · exact .inl ⟨rfl, fun a h => by cases h⟩
  refine Both.lift fun sh _ => ?_
  refine Both.lift fun t _ => ?_
  rw [Step.bind_get, Step.bind_get]
  refine Both.lift fun hello _ => ?_
  refine Both.lift fun kse _ => ?_
  refine Both.lift fun ks _ => ?_
  refine Both.lift fun c _ => ?_
  refine Both.lift fun protection ep => ?_
  obtain ⟨w, _, k1, _⟩ := new_ok ks c true
  rw [k1] at ep
  have ep := Res.ok.inj ep
  subst ep
  right
  refine ⟨h.stream.stream.written ++ h.stream.buffer, ?_⟩
  have key : ∀ (env : ClientEnv) (u : TsHash), Under (h.stream.stream.written ++ h.stream.buffer)
      ((do logHandshakeSecrets env (some ⟨ks, c, w, true, none⟩); setProtection (some ⟨ks, c, w, true, none⟩); Step.modify fun h => { h with tshash := some u }
           setState .encryptedExtensions : M Unit) h).2.stream := by
    intro env u
    rcases hl : logHandshakeSecrets env (some ⟨ks, c, w, true, none⟩) h with ⟨r, h3⟩
    have hst : r = .ok () ∧ h3.stream = h.stream := by
      obtain ⟨random, hr⟩ := Option.isSome_iff_exists.1 hf.random
      unfold logHandshakeSecrets at hl
      generalize env.config.keylog = kl at hl
      rcases kl with _ | f
      · cases hl
        exact ⟨rfl, rfl⟩
      · simp only [] at hl
        rw [Step.bind_get, hr] at hl
        cases hl
        exact ⟨rfl, rfl⟩
    obtain ⟨rfl, hst⟩ := hst
    rw [Step.bind_of_ok hl]
    show Under _ (h3.stream.setProtection _)
    rw [hst]
    exact Under.start _ hf.calm
  exact ⟨key env _, key env' _⟩

theorem client_record_both {env env' : ClientEnv} (record : Record) {h : ClientHandshake} (hf : Fresh h) :
    Both (fun _ => False) (·.stream) (handleRecord env record h) (handleRecord env' record h) := by
  unfold handleRecord
  rw [Step.bind_get, Step.bind_get]
  rw [hf.state]
  cases record.contentType <;> simp only [ne_eq, reduceCtorEq, not_false_eq_true, not_true_eq_false, if_true, if_false]
  case handshake => exact serverHello_both record hf
  case alert => exact Both.lift fun _ _ => .inl ⟨rfl, fun a h => by cases h⟩
  all_goals exact .inl ⟨rfl, fun a h => by cases h⟩

theorem client_record_under {env : ClientEnv} {record : Record} {h : ClientHandshake} (hs : h.state ≠ .serverHello) (hu : Under C h.stream) :
    Under C (handleRecord env record h).2.stream := by
  unfold handleRecord
  rw [Step.bind_get]
  have he := (client_wraps env C).encrypted record h hu
  cases record.contentType <;> simp only [if_neg hs]
  case changeCipherSpec => exact hu
  case alert => exact (Step.Pres.bind (Step.Pres.lift _) fun _ => Step.Pres.throw _ : Step.Pres (fun h : ClientHandshake => Under C h.stream) _) h hu
  all_goals
    generalize hst : h.state = st at hs ⊢
    cases st <;> first | exact absurd rfl hs | exact hu | exact he

theorem client_records_under {env : ClientEnv} (rx : Bytes) : ∀ (fuel offset : Nat) (d : Bytes) (h : ClientHandshake), Begun h → Under C h.stream →
    Under C (recordsLoop env rx fuel offset d h).2.stream := by
  intro fuel
  induction fuel with
  | zero => exact fun _ _ _ _ hu => hu
  | succ n ih =>
    intro o d h hb hu
    unfold recordsLoop
    split
    · generalize (if d = [] then sliceFrom rx o else sliceFrom d o) = buf
      cases buf with
      | err e => exact hu
      | panic => exact hu
      | ok buf =>
        rw [Step.bind_lift_ok rfl]
        simp only []
        rcases Record.fromRaw buf with ⟨consumed, record⟩ | e | _
        · simp only []
          rw [Step.bind_eq]
          have h1 := client_record_under (env := env) (record := record) hb hu
          rcases hg : handleRecord env record h with ⟨r, h'⟩
          rw [hg] at h1
          cases r with
          | err e => exact h1
          | panic => exact h1
          | ok u =>
            simp only []
            split
            · exact h1
            · exact ih _ _ h' (ClientProof.record_begun hg) h1
        · exact hu
        · exact hu
    · exact hu

theorem client_records_begun {env : ClientEnv} (rx : Bytes) : ∀ (fuel offset : Nat) (d d' : Bytes) (h h' : ClientHandshake),
    recordsLoop env rx fuel offset d h = (.ok d', h') → h' = h ∨ Begun h' := by
  intro fuel
  induction fuel with
  | zero => intro _ _ _ _ _ hw; cases hw
  | succ n ih =>
    intro o d d' h h' hw
    unfold recordsLoop at hw
    split at hw
    · generalize (if d = [] then sliceFrom rx o else sliceFrom d o) = buf at hw
      slift hw with ⟨buf, _, hw⟩
      generalize Record.fromRaw buf = q at hw
      rcases q with ⟨consumed, record⟩ | e | _
      · simp only [] at hw
        sbind hw with ⟨u, h1, e1, hw⟩
        have hb := ClientProof.record_begun e1
        split at hw
        · cases hw
          exact .inr hb
        · rcases ih _ _ _ _ _ hw with rfl | h2
          · exact .inr hb
          · exact .inr h2
      · cases hw
        exact .inl rfl
      · cases hw
    · cases hw
      exact .inl rfl

theorem client_reads_under {env : ClientEnv} : ∀ (fuel : Nat) (d : Bytes) (h : ClientHandshake), Begun h → Under C h.stream →
    Under C (readLoop env fuel d h).2.stream := by
  intro fuel
  induction fuel with
  | zero => exact fun _ _ _ hu => hu
  | succ n ih =>
    intro d h hb hu
    unfold readLoop
    rw [Step.bind_get]
    by_cases hr : h.state = .ready
    · rw [if_pos hr]
      exact hu
    rw [if_neg hr]
    rw [Step.bind_eq]
    have h1 := (client_wraps env C).read h hu
    have b1 := ClientProof.Begun.stream (fun s => s.tcpRead 2048) h hb
    rcases hg : onStream (fun s => s.tcpRead 2048) h with ⟨r, h'⟩
    rw [hg] at h1 b1
    cases r with
    | err e => exact h1
    | panic => exact h1
    | ok rx =>
      simp only []
      generalize (if d = [] then [] else d ++ rx) = e
      rw [Step.bind_eq]
      have h2 := client_records_under (env := env) rx (rx.length + e.length + 1) 0 e h' b1 h1
      rcases hg2 : recordsLoop env rx (rx.length + e.length + 1) 0 e h' with ⟨r, h''⟩
      rw [hg2] at h2
      cases r with
      | err e => exact h2
      | panic => exact h2
      | ok d' =>
        simp only []
        have b2 : Begun h'' := by
          rcases client_records_begun _ _ _ _ _ _ _ hg2 with rfl | h
          · exact b1
          · exact h
        have h3 := (client_wraps env C).flush h'' h2
        have b3 := ClientProof.Begun.stream TlsStream.flush h'' b2
        rw [Step.bind_eq]
        rcases hg3 : onStream TlsStream.flush h'' with ⟨r, h3'⟩
        rw [hg3] at h3 b3
        cases r with
        | err e => exact h3
        | panic => exact h3
        | ok u => exact ih _ h3' b3 h3

theorem client_records_both {env env' : ClientEnv} (rx : Bytes) (fuel offset : Nat) (d : Bytes) {h : ClientHandshake} (hf : Fresh h) :
    Both Fresh (·.stream) (recordsLoop env rx fuel offset d h) (recordsLoop env' rx fuel offset d h) := by
  cases fuel with
  | zero => exact .inl ⟨rfl, fun a h => by cases h⟩
  | succ n =>
    unfold recordsLoop
    split
    · refine Both.lift fun buf _ => ?_
      rcases Record.fromRaw buf with ⟨consumed, record⟩ | e | _
      · refine Both.seq (client_record_both record hf) (fun _ _ _ h => h.elim) ?_ ?_
        all_goals
          intro C u h2 e2 hu
          by_cases hd : offset + consumed = d.length
          · rw [if_pos hd]
            exact hu
          · rw [if_neg hd]
            exact client_records_under _ _ _ _ _ (ClientProof.record_begun e2) hu
      · exact .inl ⟨rfl, fun _ _ => hf⟩
      · exact .inl ⟨rfl, fun a h => by cases h⟩
    · exact .inl ⟨rfl, fun _ _ => hf⟩

theorem client_reads_both {env env' : ClientEnv} : ∀ (fuel : Nat) (d : Bytes) {h : ClientHandshake}, Fresh h →
    Both (fun _ => False) (·.stream) (readLoop env fuel d h) (readLoop env' fuel d h) := by
  intro fuel
  induction fuel with
  | zero => exact fun _ _ _ => .inl ⟨rfl, fun a h => by cases h⟩
  | succ n ih =>
    intro d h hf
    unfold readLoop
    rw [Step.bind_get, Step.bind_get, if_neg (by rw [hf.state]; simp), if_neg (by rw [hf.state]; simp)]
    refine Both.same fun rx h1 e1 => ?_
    have hf1 : Fresh h1 := by
      unfold onStream TlsStream.tcpRead at e1
      rcases hi : h.stream.stream.incoming with _ | ⟨c, cs⟩ <;> simp only [hi] at e1
      · cases e1
      · split_ifs at e1 <;> cases e1 <;> exact ⟨hf.state, hf.calm, hf.random, hf.keys⟩
    generalize (if d = [] then [] else d ++ rx) = e
    have rest : ∀ (env : ClientEnv) (C : Bytes) (d' : Bytes) (h2 : ClientHandshake), recordsLoop env rx (rx.length + e.length + 1) 0 e h1 = (.ok d', h2) → Under C h2.stream →
        Under C ((onStream TlsStream.flush >>= fun _ => readLoop env n d' : M Unit) h2).2.stream := by
      intro env C d' h2 e2 hu
      have hb : Begun h2 := by
        rcases client_records_begun _ _ _ _ _ _ _ e2 with rfl | h
        · have := hu.keys
          rw [hf1.keys] at this
          cases this
        · exact h
      rw [Step.bind_eq]
      have h3 := (client_wraps env C).flush h2 hu
      have b3 := ClientProof.Begun.stream TlsStream.flush h2 hb
      rcases hg3 : onStream TlsStream.flush h2 with ⟨r, h3'⟩
      rw [hg3] at h3 b3
      cases r with
      | err e => exact h3
      | panic => exact h3
      | ok u => exact client_reads_under _ _ h3' b3 h3
    refine Both.seq (client_records_both rx _ 0 e hf1) (fun d' h2 _ hf2 => ?_) (rest env) (rest env')
    refine Both.same fun u h3 e3 => ih d' ?_
    unfold onStream TlsStream.flush Socket.writeAll at e3
    simp only [hf2.calm] at e3
    split_ifs at e3 <;> cases e3 <;> exact ⟨hf2.state, by first | rfl | exact hf2.calm, hf2.random, hf2.keys⟩

theorem client_reads_flushed {env : ClientEnv} : ∀ (fuel : Nat) (d : Bytes) {h h' : ClientHandshake}, (h.state = .ready → h.stream.buffer = []) →
    readLoop env fuel d h = (.ok (), h') → h'.stream.buffer = [] := by
  intro fuel
  induction fuel with
  | zero =>
    intro d h h' _ hw
    cases hw
  | succ n ih =>
    intro d h h' hb hw
    unfold readLoop at hw
    rw [Step.bind_get] at hw
    by_cases hr : h.state = .ready
    · rw [if_pos hr] at hw
      cases hw
      exact hb hr
    rw [if_neg hr] at hw
    sbind hw with ⟨rx, h1, _, hw⟩
    sbind hw with ⟨u, h2, _, hw⟩
    sbind hw with ⟨u, h3, e3, hw⟩
    refine ih _ (fun _ => ?_) hw
    unfold onStream TlsStream.flush at e3
    generalize h2.stream.stream.writeAll h2.stream.buffer = x at e3
    rcases x with ⟨b, sock⟩
    cases b <;> cases e3
    rfl

end Client

end ATLS.ClearProof
