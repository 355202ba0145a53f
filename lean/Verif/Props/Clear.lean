import Verif.Proof.Clear
import Verif.Props.AgreementExample
/-
C110: certificates, private keys and authorities do not show in what is sent outside of protected records.
-/
namespace ATLS
open ATLS.Model ATLS.Spec FlowProof RecProof KsProof

/-- What an observer who cannot open protected records sees of two runs, `w` and `w'`: both begin with (the beginning of) the same bytes, and what
follows consists of protected records. A run that came to an end, `done` and `done'`, has sent all of the common bytes. -/
def SameInClear (w w' : Bytes) (done done' : Prop) : Prop :=
  ∃ common C C' B B', C <+: common ∧ C' <+: common ∧ w = C ++ B ∧ w' = C' ++ B' ∧
    Tls13.AllSealed ClearProof.Library B ∧ Tls13.AllSealed ClearProof.Library B' ∧ (done → C = common) ∧ (done' → C' = common)

namespace ClearProof

/-- The end of `accept`, after the handshake. -/
def serverEnd (x : Res TlsError Unit × ServerHandshake) : Res TlsError TlsStream × ServerHandshake :=
  match x with
  | (.ok _, h) => (.ok h.stream, h)
  | (.panic, h) => (.panic, h)
  | (.err e, h) => (.err (ServerHandshake.reported e), if e.discr < TlsError.notOfficial.discr then { h with stream := (h.stream.writeAlert e).2 } else h)

/-- The end of `connect`, after the handshake. -/
def clientEnd (x : Res TlsError Unit × ClientHandshake) : Res TlsError TlsStream × ClientHandshake :=
  match x with
  | (.ok _, h) => (.ok h.stream, h)
  | (.panic, h) => (.panic, h)
  | (.err e, h) => (.err (ServerHandshake.reported e), if e.discr < TlsError.notOfficial.discr then { h with stream := (h.stream.writeAlert e).2 } else h)

theorem server_written (env : ServerEnv) (reads : List Bytes) (sock : Socket) :
    (ServerConnection.accept env reads sock).2 = (serverEnd (ServerHandshake.doHandshake env (ServerHandshake.new env (TlsStream.new sock) reads))).2 ∧
      ((∃ s, (ServerConnection.accept env reads sock).1 = .ok s) → (ServerHandshake.doHandshake env (ServerHandshake.new env (TlsStream.new sock) reads)).1 = .ok ()) := by
  unfold ServerConnection.accept ServerHandshake.doHandshakeWithError serverEnd
  rcases ServerHandshake.doHandshake env (ServerHandshake.new env (TlsStream.new sock) reads) with ⟨r, h⟩
  cases r with
  | ok u => exact ⟨rfl, fun _ => rfl⟩
  | panic => exact ⟨rfl, fun ⟨s, hs⟩ => by cases hs⟩
  | err e =>
    simp only []
    by_cases hd : e.discr < TlsError.notOfficial.discr
    · simp only [if_pos hd]
      rw [Step.bind_eq]
      unfold ServerHandshake.onStream
      simp only []
      generalize h.stream.writeAlert e = w
      obtain ⟨r, s'⟩ := w
      cases r <;> exact ⟨rfl, fun ⟨s, hs⟩ => by cases hs⟩
    · simp only [if_neg hd]
      exact ⟨rfl, fun ⟨s, hs⟩ => by cases hs⟩

theorem client_written (env : ClientEnv) (reads : List Bytes) (sock : Socket) {h : ClientHandshake} (hh : (ClientConnection.connect env reads sock).2 = some h) :
    ∃ h0, ClientHandshake.new (TlsStream.new sock) reads = .ok h0 ∧ h = (clientEnd (ClientHandshake.doHandshake env h0)).2 ∧
      ((∃ s, (ClientConnection.connect env reads sock).1 = .ok s) → (ClientHandshake.doHandshake env h0).1 = .ok ()) := by
  unfold ClientConnection.connect at hh ⊢
  rcases hn : ClientHandshake.new (TlsStream.new sock) reads with h0 | e | _
  · refine ⟨h0, rfl, ?_⟩
    rw [hn] at hh
    simp only [] at hh ⊢
    unfold ClientHandshake.doHandshakeWithError at hh ⊢
    unfold clientEnd
    generalize ClientHandshake.doHandshake env h0 = x at hh ⊢
    obtain ⟨r, k⟩ := x
    cases r with
    | ok u =>
      cases hh
      exact ⟨rfl, fun _ => rfl⟩
    | panic =>
      cases hh
      exact ⟨rfl, fun ⟨s, hs⟩ => by cases hs⟩
    | err e =>
      simp only [] at hh ⊢
      by_cases hd : e.discr < TlsError.notOfficial.discr
      · simp only [if_pos hd] at hh ⊢
        rw [Step.bind_eq] at hh ⊢
        unfold ClientHandshake.onStream at hh ⊢
        simp only [] at hh ⊢
        generalize k.stream.writeAlert e = w at hh ⊢
        obtain ⟨r, s'⟩ := w
        cases r <;> cases hh <;> exact ⟨rfl, fun ⟨s, hs⟩ => by cases hs⟩
      · simp only [if_neg hd] at hh ⊢
        cases hh
        exact ⟨rfl, fun ⟨s, hs⟩ => by cases hs⟩
  · rw [hn] at hh
    cases hh
  · rw [hn] at hh
    cases hh

theorem server_shown {C : Bytes} {x : Res TlsError Unit × ServerHandshake} (hu : Under C x.2.stream) (hb : x.1 = .ok () → x.2.stream.buffer = []) :
    ∃ C1 B, C1 <+: C ∧ (serverEnd x).2.stream.stream.written = C1 ++ B ∧ Tls13.AllSealed Library B ∧ (x.1 = .ok () → C1 = C) := by
  obtain ⟨r, h⟩ := x
  obtain ⟨C1, B, h1, h2, h3, h4⟩ := hu.sent
  cases r with
  | ok u => exact ⟨C1, B, h1, h2, h3, fun h => h4 (hb h)⟩
  | panic => exact ⟨C1, B, h1, h2, h3, fun h => by cases h⟩
  | err e =>
    unfold serverEnd
    simp only []
    split
    · obtain ⟨C1, B, h1, h2, h3⟩ := hu.alert e
      exact ⟨C1, B, h1, h2, h3, fun h => by cases h⟩
    · exact ⟨C1, B, h1, h2, h3, fun h => by cases h⟩

theorem client_shown {C : Bytes} {x : Res TlsError Unit × ClientHandshake} (hu : Under C x.2.stream) (hb : x.1 = .ok () → x.2.stream.buffer = []) :
    ∃ C1 B, C1 <+: C ∧ (clientEnd x).2.stream.stream.written = C1 ++ B ∧ Tls13.AllSealed Library B ∧ (x.1 = .ok () → C1 = C) := by
  obtain ⟨r, h⟩ := x
  obtain ⟨C1, B, h1, h2, h3, h4⟩ := hu.sent
  cases r with
  | ok u => exact ⟨C1, B, h1, h2, h3, fun h => h4 (hb h)⟩
  | panic => exact ⟨C1, B, h1, h2, h3, fun h => by cases h⟩
  | err e =>
    unfold clientEnd
    simp only []
    split
    · obtain ⟨C1, B, h1, h2, h3⟩ := hu.alert e
      exact ⟨C1, B, h1, h2, h3, fun h => by cases h⟩
    · exact ⟨C1, B, h1, h2, h3, fun h => by cases h⟩

theorem fresh_hello {env : ClientEnv} {h0 h1 : ClientHandshake} (hc : h0.stream.stream.failures = []) (hs : h0.state = .serverHello) (hk : h0.stream.protection = none)
    (e : ClientHandshake.sendClientHello env h0 = (.ok (), h1)) : Fresh h1 := by
  unfold ClientHandshake.sendClientHello at e
  rw [Step.bind_get] at e
  slift e with ⟨⟨random, rng⟩, _, e⟩
  simp only [] at e
  slift e with ⟨⟨sid, rng'⟩, _, e⟩
  simp only [] at e
  rw [Step.bind_modify] at e
  slift e with ⟨kse, _, e⟩
  slift e with ⟨body, _, e⟩
  rw [Step.bind_modify] at e
  unfold ClientHandshake.onStream TlsStream.tcpWrite Socket.write at e
  simp only [hc] at e
  cases e
  exact ⟨hs, rfl, rfl, hk⟩

end ClearProof

/-- C110, the server: two servers that may differ in certificate, private key, authority for client certificates, verify function, key log, clock and signature
nonces send the same outside of protected records, whatever they receive. Partial: protected is what the library's own AEAD made of the message; `C110_chacha` says
what that shows. -/
theorem C110_server_partial (env env' : ServerEnv) (reads incoming : List Bytes) (hn : env'.config.serverName = env.config.serverName)
    (hp : env'.config.prngType = env.config.prngType) :
    SameInClear (ServerConnection.accept env reads ⟨incoming, [], []⟩).2.stream.stream.written (ServerConnection.accept env' reads ⟨incoming, [], []⟩).2.stream.stream.written
      (∃ s, (ServerConnection.accept env reads ⟨incoming, [], []⟩).1 = .ok s) (∃ s, (ServerConnection.accept env' reads ⟨incoming, [], []⟩).1 = .ok s) := by
  have hnew : ServerHandshake.new env' (TlsStream.new ⟨incoming, [], []⟩) reads = ServerHandshake.new env (TlsStream.new ⟨incoming, [], []⟩) reads := by
    unfold ServerHandshake.new
    rw [hp]
  obtain ⟨a1, a2⟩ := ClearProof.server_written env reads ⟨incoming, [], []⟩
  obtain ⟨b1, b2⟩ := ClearProof.server_written env' reads ⟨incoming, [], []⟩
  rw [a1, b1]
  rw [hnew] at b2 ⊢
  obtain ⟨h0, hh0⟩ : ∃ h0, h0 = ServerHandshake.new env (TlsStream.new ⟨incoming, [], []⟩) reads := ⟨_, rfl⟩
  have c0 : h0.stream.stream.failures = [] := by rw [hh0]; rfl
  have s0 : h0.state = .clientHello := by rw [hh0]; rfl
  rw [← hh0] at a2 b2 ⊢
  have hb : ClearProof.Both (fun _ => False) (·.stream) (ServerHandshake.doHandshake env h0) (ServerHandshake.doHandshake env' h0) := ClearProof.reads_both hn _ c0 s0
  have fl : ∀ env : ServerEnv, (ServerHandshake.doHandshake env h0).1 = .ok () → (ServerHandshake.doHandshake env h0).2.stream.buffer = [] :=
    fun env e => ClearProof.reads_flushed _ (fun h => by rw [s0] at h; cases h) (Prod.ext e rfl)
  rcases hb with ⟨he, hno⟩ | ⟨C, h1, h2⟩
  · rw [he]
    refine ⟨_, _, _, [], [], List.prefix_refl _, List.prefix_refl _, (List.append_nil _).symm, (List.append_nil _).symm, .nil, .nil, fun _ => rfl, fun _ => rfl⟩
  · obtain ⟨C1, B, x1, x2, x3, x4⟩ := ClearProof.server_shown h1 (fl env)
    obtain ⟨C1', B', y1, y2, y3, y4⟩ := ClearProof.server_shown h2 (fl env')
    exact ⟨C, C1, C1', B, B', x1, y1, x2, y2, x3, y3, fun h => x4 (a2 h), fun h => y4 (b2 h)⟩

/-- C110, the client: two clients that may differ in certificate, private key, key log, clock and signature nonces send the same outside of protected records, whatever
they receive. Partial as above. -/
theorem C110_client_partial (env env' : ClientEnv) (reads incoming : List Bytes) (h h' : ClientHandshake) (hn : env'.config.serverName = env.config.serverName)
    (hh : (ClientConnection.connect env reads ⟨incoming, [], []⟩).2 = some h) (hh' : (ClientConnection.connect env' reads ⟨incoming, [], []⟩).2 = some h') :
    SameInClear h.stream.stream.written h'.stream.stream.written
      (∃ s, (ClientConnection.connect env reads ⟨incoming, [], []⟩).1 = .ok s) (∃ s, (ClientConnection.connect env' reads ⟨incoming, [], []⟩).1 = .ok s) := by
  obtain ⟨h0, a0, a1, a2⟩ := ClearProof.client_written env reads _ hh
  obtain ⟨k0, b0, b1, b2⟩ := ClearProof.client_written env' reads _ hh'
  rw [a0] at b0
  have b0 := Res.ok.inj b0
  subst b0
  have hz : h0.stream.stream.failures = [] ∧ h0.state = .serverHello ∧ h0.stream.protection = none := by
    unfold ClientHandshake.new at a0
    obtain ⟨⟨secret, rng⟩, _, a0⟩ := Res.bind_eq_ok.1 a0
    cases a0
    exact ⟨rfl, rfl, rfl⟩
  obtain ⟨c0, s0, p0⟩ := hz
  have hhello : ClientHandshake.sendClientHello env' = ClientHandshake.sendClientHello env := by
    unfold ClientHandshake.sendClientHello
    rw [hn]
  have hb : ClearProof.Both (fun _ => False) (·.stream) (ClientHandshake.doHandshake env h0) (ClientHandshake.doHandshake env' h0) := by
    unfold ClientHandshake.doHandshake
    rw [hhello]
    refine ClearProof.Both.same fun u h1 e1 => ?_
    exact ClearProof.client_reads_both _ _ (ClearProof.fresh_hello c0 s0 p0 e1)
  have fl : ∀ env : ClientEnv, (ClientHandshake.doHandshake env h0).1 = .ok () → (ClientHandshake.doHandshake env h0).2.stream.buffer = [] := by
    intro env e
    have hx : ClientHandshake.doHandshake env h0 = (.ok (), (ClientHandshake.doHandshake env h0).2) := Prod.ext e rfl
    generalize (ClientHandshake.doHandshake env h0).2 = k at hx ⊢
    unfold ClientHandshake.doHandshake at hx
    sbind hx with ⟨u, h1, e1, hx⟩
    have hf := ClearProof.fresh_hello c0 s0 p0 e1
    exact ClearProof.client_reads_flushed _ _ (fun h => by rw [hf.state] at h; cases h) hx
  subst a1
  subst b1
  rcases hb with ⟨he, hno⟩ | ⟨C, h1, h2⟩
  · rw [he]
    refine ⟨_, _, _, [], [], List.prefix_refl _, List.prefix_refl _, (List.append_nil _).symm, (List.append_nil _).symm, .nil, .nil, fun _ => rfl, fun _ => rfl⟩
  · obtain ⟨C1, B, x1, x2, x3, x4⟩ := ClearProof.client_shown h1 (fl env)
    obtain ⟨C1', B', y1, y2, y3, y4⟩ := ClearProof.client_shown h2 (fl env')
    exact ⟨C, C1, C1', B, B', x1, y1, x2, y2, x3, y3, fun h => x4 (a2 h), fun h => y4 (b2 h)⟩

/-- C110, what protection does not hide: a handshake message sent under ChaCha20-Poly1305 whose length plus one is a multiple of 64 leaves with its last 63 bytes in
clear, be it a certificate. -/
theorem C110_chacha (s : TlsStream) (p : RecordPayloadProtection) (m : Bytes) (h : Writable .chacha20Poly1305Sha256 s p) (hl : m.length ≤ 2 ^ 14)
    (hm : (m.length + 1) % 64 = 0) :
    ∃ s' front tag, s.writeRecord .handshake m = (.ok (), s') ∧ tag.length = 16 ∧ front.length = 5 + (m.length - 63) ∧
      s'.stream.written ++ s'.buffer = s.stream.written ++ s.buffer ++ front ++ m.drop (m.length - 63) ++ [22#8] ++ tag := by
  obtain ⟨w, p', hw0, ⟨ct, tag, hw, he, hl1, hl2⟩, _⟩ := encrypt_spec _ p h.cipher h.sizes (Writable.ne h) .handshake m (by omega)
  have hsz := h.sizes
  have hci := h.cipher
  have hnl := nonce_length (wKey p).iv (wKey p).sequenceNumber.toNat hsz.2
  simp only [CipherSuite.getCipher, Res.ok.injEq, CipherSuite.getKeyAndIvLen] at hci hsz
  rw [← hci] at he
  simp only [Cipher.encrypt, Nat.add_zero] at he
  obtain ⟨c, hc1, _, hc2⟩ := CipherProof.poly_encrypt_ok (wKey p).key (Tls13.nonce (wKey p).iv (wKey p).sequenceNumber.toNat)
      (m ++ [RecordType.handshake.code] ++ zeros 0) ([23#8, 3#8, 3#8] ++ beBytes 2 (m.length + 1 + 16)) hsz.1 hnl (by simp; omega)
  have hlen : (m ++ [RecordType.handshake.code] ++ zeros 0).length = m.length + 1 := by simp
  obtain ⟨c', hc', hclear⟩ := C13_last_block_in_clear _ _ (m ++ [RecordType.handshake.code] ++ zeros 0) 1 hsz.1 hnl
    (by simp; omega) (by rw [hlen]; exact hm)
  rw [hc1] at hc'
  simp only [Res.ok.injEq] at hc'
  subst hc'
  rw [hc2] at he
  simp only [Res.ok.injEq, Prod.mk.injEq] at he
  have hdrop : c.drop (m.length - 63) = m.drop (m.length - 63) ++ [22#8] := by
    rw [hlen, show m.length + 1 - 64 = m.length - 63 by omega] at hclear
    rw [hclear]
    simp [RecordType.code, List.drop_append]
  have hww : w = ([23#8, 3#8, 3#8] ++ beBytes 2 (m.length + 1 + 16) ++ c.take (m.length - 63)) ++ m.drop (m.length - 63) ++ [22#8] ++ tag := by
    rw [hw, ← he.1]
    conv_lhs => rw [← List.take_append_drop (m.length - 63) c, hdrop]
    simp
  have hsent : ∃ s', s.writeRecord .handshake m = (.ok (), s') ∧ s'.stream.written ++ s'.buffer = s.stream.written ++ s.buffer ++ w := by
    unfold TlsStream.writeRecord TlsStream.protectRecord
    rw [h.prot]
    simp only []
    rw [hw0]
    simp only []
    split
    · next hb =>
      unfold TlsStream.flush Socket.writeAll
      have hne : s.buffer ++ w ≠ [] := by
        intro h0
        rw [h0] at hb
        simp at hb
      simp only []
      rw [if_neg hne, h.sock]
      exact ⟨_, rfl, by simp⟩
    · exact ⟨_, rfl, by simp⟩
  obtain ⟨s', e1, e2⟩ := hsent
  refine ⟨s', [23#8, 3#8, 3#8] ++ beBytes 2 (m.length + 1 + 16) ++ c.take (m.length - 63), tag, e1, hl2, by simp [he.1, hl1]; omega, ?_⟩
  rw [e2, hww]
  simp

/-- The hypotheses of `C110_server_partial` are met by two servers one of which completes a handshake with client authentication, while the other has no authority for
client certificates, no key log, another clock and no nonces. -/
example : ∃ (env env' : ServerEnv) (reads incoming : List Bytes), env'.config.serverName = env.config.serverName ∧ env'.config.prngType = env.config.prngType ∧
    (∃ s, (ServerConnection.accept env reads ⟨incoming, [], []⟩).1 = .ok s) ∧ env.config.clientCertCa.isSome ∧ env'.config.clientCertCa = none ∧ env'.nonces = [] ∧
    env'.config.keylog = none := by
  obtain ⟨-, ⟨ca, kc, ks, q, r, rng, auth, ws, cws, R⟩⟩ := PairProof.example_runs
  have hsz : (Spec.X509.certificate ownTbs ownR ownS).length ≤ 1800 := by decide +kernel
  obtain ⟨ss, h, a1, a2⟩ := AgreeProof.run_accepted R rfl hsz
  obtain ⟨env, reads, incoming, h1, h2⟩ : ∃ (env : ServerEnv) (reads incoming : List Bytes),
      (∃ s, (ServerConnection.accept env reads ⟨incoming, [], []⟩).1 = .ok s) ∧ env.config.clientCertCa.isSome := ⟨_, _, r.chRec :: cws, ⟨ss, by rw [a1]⟩, rfl⟩
  exact ⟨env, ⟨{ env.config with clientCertCa := none, keylog := none }, [], 0⟩, reads, incoming, rfl, rfl, h1, h2, rfl, rfl, rfl⟩

/-- The hypotheses of `C110_client_partial` are met by two clients one of which completes a handshake with its certificate, while the other has none. -/
example : ∃ (env env' : ClientEnv) (reads incoming : List Bytes) (h h' : ClientHandshake), env'.config.serverName = env.config.serverName ∧ env.config.clientCert.isSome ∧ env'.config.clientCert = none ∧
    (ClientConnection.connect env reads ⟨incoming, [], []⟩).2 = some h ∧ (ClientConnection.connect env' reads ⟨incoming, [], []⟩).2 = some h' ∧
    (∃ s, (ClientConnection.connect env reads ⟨incoming, [], []⟩).1 = .ok s) := by
  obtain ⟨-, ⟨ca, kc, ks, q, r, rng, auth, ws, cws, R⟩⟩ := PairProof.example_runs
  have size : (Spec.X509.certificate ownTbs ownR ownS).length + 400 ≤ 2 ^ 24 := by decide +kernel
  have hsz : (Spec.X509.certificate ownTbs ownR ownS).length ≤ 1800 := by decide +kernel
  obtain ⟨cs, h, _, b1, _⟩ := AgreeProof.run_completed R hsz (fun c hc => by rw [← Option.some.inj hc]; exact size)
    (fun n hn => by rw [← Option.some.inj hn]; decide +kernel)
  have key : ∀ (env : ClientEnv) reads sock, (∃ h0, ClientHandshake.new (TlsStream.new sock) reads = .ok h0) → ∃ h, (ClientConnection.connect env reads sock).2 = some h := by
    rintro env reads sock ⟨h0, e⟩
    unfold ClientConnection.connect
    rw [e]
    simp only []
    generalize ClientHandshake.doHandshakeWithError env h0 = x
    obtain ⟨r, k⟩ := x
    cases r <;> exact ⟨_, rfl⟩
  obtain ⟨env, reads, incoming, ⟨s, e⟩, h2⟩ : ∃ (env : ClientEnv) (reads incoming : List Bytes),
      (∃ s, (ClientConnection.connect env reads ⟨incoming, [], []⟩).1 = .ok s) ∧ env.config.clientCert.isSome := ⟨_, _, _, ⟨cs, by rw [b1]⟩, rfl⟩
  have hnew : ∃ h0, ClientHandshake.new (TlsStream.new ⟨incoming, [], []⟩) reads = .ok h0 := by
    unfold ClientConnection.connect at e
    generalize ClientHandshake.new (TlsStream.new ⟨incoming, [], []⟩) reads = x at e
    cases x with
    | ok h0 => exact ⟨h0, rfl⟩
    | err e' => cases e
    | panic => cases e
  obtain ⟨k, hk⟩ := key env _ _ hnew
  obtain ⟨k', hk'⟩ := key ⟨{ env.config with clientCert := none }, [], 0⟩ _ _ hnew
  exact ⟨env, ⟨{ env.config with clientCert := none }, [], 0⟩, reads, incoming, k, k', rfl, h2, rfl, hk, hk', s, e⟩

/-- The hypotheses of `C110_chacha` are met. -/
example : ∃ s p, Writable .chacha20Poly1305Sha256 s p ∧ s.buffer ≠ [] :=
  ⟨⟨⟨[], [], []⟩, some ⟨⟨⟨.sha256, []⟩, ⟨.sha256, []⟩, ⟨.sha256, []⟩⟩, .poly1305, ⟨⟨[], zeros 32, zeros 12, 0⟩, ⟨[], zeros 32, zeros 12, 0⟩⟩, false, none⟩, [0#8]⟩,
    _, ⟨rfl, rfl, ⟨by decide, by decide⟩, by decide, rfl⟩, by decide⟩

end ATLS
