import Verif.Proof.Outcome
/-
C46: the outcome of a handshake and the way TCP cuts the peer's byte stream into reads.
C59: change_cipher_spec records.
-/
namespace ATLS
open ATLS.Model ATLS.Spec

/-! ### C46 -/

/-- For a fixed byte stream of the peer, the result of the handshake is the same however the stream is split into (non-empty) reads. -/
def C46_statement : Prop :=
  (∀ (env : ServerEnv) (rng reads reads' : List Bytes), [] ∉ reads → [] ∉ reads' → reads.flatten = reads'.flatten →
    SameResult (ServerConnection.accept env rng ⟨reads, [], []⟩).1 (ServerConnection.accept env rng ⟨reads', [], []⟩).1) ∧
  (∀ (env : ClientEnv) (rng reads reads' : List Bytes), [] ∉ reads → [] ∉ reads' → reads.flatten = reads'.flatten →
    SameResult (ClientConnection.connect env rng ⟨reads, [], []⟩).1 (ClientConnection.connect env rng ⟨reads', [], []⟩).1)

/-- The server's handshake breaks as soon as a record does not end with the read it begins in: if the first read returns a proper part of a
record, the handshake is over, with decode_error, or with a panic when at most three bytes are missing. For every configuration and whatever
follows. -/
theorem C46_server_split (env : ServerEnv) (rng : List Bytes) (w part missing : Bytes) (more : List Bytes) (hw : Tls13.WholeRecord w) (hs : w = part ++ missing)
    (hp : part ≠ []) (hm : missing ≠ []) (hl : part.length ≤ 4096) :
    (ServerConnection.accept env rng ⟨part :: more, [], []⟩).1 = .err .decodeError ∨ (ServerConnection.accept env rng ⟨part :: more, [], []⟩).1 = .panic := by
  have key : Record.fromRaw part = .err .decodeError ∨ Record.fromRaw part = .panic := by
    obtain ⟨type, content, ht, v1, v2, hc, rfl⟩ := hw
    unfold Record.fromRaw
    by_cases h5 : part.length < 5
    · rw [if_pos h5]; exact Or.inl rfl
    rw [if_neg h5]
    obtain ⟨b1, b2, b3, b4, b5, rest, rfl⟩ : ∃ b1 b2 b3 b4 b5 rest, part = b1 :: b2 :: b3 :: b4 :: b5 :: rest := by
      match part, h5 with
      | b1 :: b2 :: b3 :: b4 :: b5 :: rest, _ => exact ⟨_, _, _, _, _, _, rfl⟩
      | [], h => simp at h
      | [_], h => simp at h
      | [_, _], h => simp at h
      | [_, _, _], h => simp at h
      | [_, _, _, _], h => simp at h
    rw [RecProof.beBytes2] at hs
    simp only [List.cons_append, List.nil_append, List.cons.injEq] at hs
    obtain ⟨rfl, rfl, rfl, rfl, rfl, rfl⟩ := hs
    have hlen : (BitVec.ofNat 8 ((rest ++ missing).length / 256)).toNat * 256 + (BitVec.ofNat 8 (rest ++ missing).length).toNat = (rest ++ missing).length := by
      simp only [BitVec.toNat_ofNat]
      omega
    have hrl : rest.length < (rest ++ missing).length := by
      have := List.length_pos_iff.2 hm
      rw [List.length_append]; omega
    obtain ⟨t, ht⟩ : ∃ t : RecordType, (RecordType.new type : Res TlsError RecordType) = .ok t := by
      simp only [List.mem_cons, List.not_mem_nil, or_false] at ht
      rcases ht with rfl | rfl | rfl | rfl
      · exact ⟨.changeCipherSpec, rfl⟩
      · exact ⟨.alert, rfl⟩
      · exact ⟨.handshake, rfl⟩
      · exact ⟨.applicationData, rfl⟩
    simp only [idx, List.getElem?_cons_zero, List.getElem?_cons_succ, Res.ok_bind]
    rw [ht, Res.ok_bind, hlen]
    by_cases h2 : (type :: v1 :: v2 :: BitVec.ofNat 8 ((rest ++ missing).length / 256) :: BitVec.ofNat 8 (rest ++ missing).length :: rest).length < 2 + (rest ++ missing).length
    · rw [if_pos h2]; exact Or.inl rfl
    · rw [if_neg h2]
      right
      rw [show (slice (type :: v1 :: v2 :: BitVec.ofNat 8 ((rest ++ missing).length / 256) :: BitVec.ofNat 8 (rest ++ missing).length :: rest) 5
        (5 + (rest ++ missing).length) : Res TlsError Bytes) = .panic by
          unfold slice
          rw [if_neg]
          simp only [List.length_cons]
          omega]
      unfold slice
      rfl
  have hne : part.length ≠ 0 := fun h => hp (List.eq_nil_of_length_eq_zero h)
  obtain ⟨fuel, hf⟩ : ∃ fuel, fuel = (((part :: more).map List.length).sum + (part :: more).length + 1) := ⟨_, rfl⟩
  unfold ServerConnection.accept ServerHandshake.doHandshakeWithError ServerHandshake.doHandshake
  have hread : ∀ h0 : ServerHandshake, h0 = ServerHandshake.new env (TlsStream.new ⟨part :: more, [], []⟩) rng → ∃ h1 : ServerHandshake, h1.stream.stream.failures = [] ∧ h1.stream.protection = none ∧
      (ServerHandshake.readLoop env (fuel + 1) h0 = (.err .decodeError, h1) ∨ ServerHandshake.readLoop env (fuel + 1) h0 = (.panic, h1)) := by
    intro h0 h0e
    refine ⟨{ h0 with stream := { h0.stream with stream := { h0.stream.stream with incoming := more } } }, by rw [h0e]; rfl, by rw [h0e]; rfl, ?_⟩
    unfold ServerHandshake.readLoop
    rw [Step.bind_get, if_neg (by rw [h0e]; exact fun h => by cases h)]
    have hr : (ServerHandshake.onStream fun s => s.tcpRead 4096) h0 = (.ok part, { h0 with stream := { h0.stream with stream := { h0.stream.stream with incoming := more } } }) := by
      have hi : h0.stream.stream.incoming = part :: more := by rw [h0e]; rfl
      unfold ServerHandshake.onStream TlsStream.tcpRead
      simp only [hi]
      rw [List.take_of_length_le hl, List.drop_of_length_le hl, if_neg hp, if_pos rfl]
    obtain ⟨m, hm'⟩ : ∃ m, part.length = m + 1 := ⟨part.length - 1, by omega⟩
    rcases key with key | key
    · left
      refine (Step.bind_of_ok hr).trans ?_
      rw [hm']
      unfold ServerHandshake.recordsLoop
      rw [if_neg hp, key]
      rfl
    · right
      refine (Step.bind_of_ok hr).trans ?_
      rw [hm']
      unfold ServerHandshake.recordsLoop
      rw [if_neg hp, key]
      rfl
  obtain ⟨h1, hf1, hp1, hh⟩ := hread _ rfl
  have hfuel : ((ServerHandshake.new env (TlsStream.new ⟨part :: more, [], []⟩) rng).stream.stream.incoming.map List.length).sum +
      (ServerHandshake.new env (TlsStream.new ⟨part :: more, [], []⟩) rng).stream.stream.incoming.length + 2 = fuel + 1 := by rw [hf]; rfl
  rw [hfuel]
  rcases hh with hh | hh
  · left
    rw [hh]
    rcases h1 with ⟨⟨⟨i, f, w⟩, p, b⟩, _⟩
    simp only at hf1 hp1
    subst hf1 hp1
    rfl
  · right
    rw [hh]

/-- A configuration for the examples. -/
def plainServer : ServerEnv := ⟨⟨⟨.secp256r1, 1⟩, ⟨[], none⟩, none, none, none, none, .urandom⟩, [], 0⟩

/-- An alert of the peer is reported as such when it arrives in one piece, and as decode_error when its first three bytes arrive first. -/
theorem C46_false : ¬ C46_statement := by
  intro h
  have := h.1 plainServer [] [[21, 3, 3, 0, 2, 2, 40]] [[21, 3, 3], [0, 2, 2, 40]] (by decide) (by decide) rfl
  have h1 : (ServerConnection.accept plainServer [] ⟨[[21, 3, 3, 0, 2, 2, 40]], [], []⟩).1 = .err .handshakeFailure := rfl
  have h2 : (ServerConnection.accept plainServer [] ⟨[[21, 3, 3], [0, 2, 2, 40]], [], []⟩).1 = .err .decodeError := rfl
  rw [h1, h2] at this
  cases this

theorem delivered_le {cap : Nat} {records reads : List Bytes} (h : Tls13.Delivers cap records reads) : ∀ w ∈ records, w.length ≤ cap := by
  obtain ⟨groups, rfl, _, hg⟩ := h
  intro w hw
  obtain ⟨g, h1, h2⟩ := List.mem_flatten.1 hw
  refine le_trans ?_ (hg g h1).2
  rw [List.length_flatten]
  exact List.le_sum_of_mem (List.mem_map_of_mem h2)

/-- Server: any two deliveries of the same records, each read a number of whole records, have the same outcome and log the same secrets. The
peer sends no unprotected alert after the records that complete the handshake (it would be noticed only if it comes with the same read).
Missing for C46: reads that cut a record, see `C46_server_split`. -/
theorem C46_server_partial (env : ServerEnv) (rng records reads reads' : List Bytes) (hw : ∀ w ∈ records, Tls13.WholeRecord w)
    (hd : Tls13.Delivers 4096 records reads) (hd' : Tls13.Delivers 4096 records reads')
    (hq : ∀ a w b, records = a ++ w :: b → (∃ c, Tls13.IsRecord 21#8 c w) → ∀ s h, ServerConnection.accept env rng ⟨a, [], []⟩ ≠ (.ok s, h)) :
    SameResult (ServerConnection.accept env rng ⟨reads, [], []⟩).1 (ServerConnection.accept env rng ⟨reads', [], []⟩).1 ∧
    ((ServerConnection.accept env rng ⟨reads, [], []⟩).1 ≠ .panic →
      (ServerConnection.accept env rng ⟨reads', [], []⟩).2.logged = (ServerConnection.accept env rng ⟨reads, [], []⟩).2.logged) :=
  have q := ServerProof.quiet_of env rng hw (delivered_le hd) hq
  ServerProof.accept_same env rng hw hd q hw hd' q rfl

/-- Client: the same, for reads of at most 2048 bytes, which may cut records: the client keeps the beginning of a record until the rest arrives
(`Tls13.Pieces`). Missing for C46: a read that ends within the last three bytes of a record, see `C46_client_cut`; a read that has the last piece
of a record and the beginning of another one, see `C46_client_replayed`. -/
theorem C46_client_partial (env : ClientEnv) (rng records reads reads' : List Bytes) (hw : ∀ w ∈ records, Tls13.WholeRecord w)
    (hd : Tls13.Pieces 2048 [] records reads) (hd' : Tls13.Pieces 2048 [] records reads')
    (hq : ∀ a w b, records = a ++ w :: b → (∃ c, Tls13.IsRecord 21#8 c w) → ∀ reads, Tls13.Pieces 2048 [] a reads →
      ∀ s h, ClientConnection.connect env rng ⟨reads, [], []⟩ ≠ (.ok s, h)) :
    SameResult (ClientConnection.connect env rng ⟨reads, [], []⟩).1 (ClientConnection.connect env rng ⟨reads', [], []⟩).1 ∧
    ((ClientConnection.connect env rng ⟨reads, [], []⟩).1 ≠ .panic →
      (ClientConnection.connect env rng ⟨reads', [], []⟩).2.map (·.logged) = (ClientConnection.connect env rng ⟨reads, [], []⟩).2.map (·.logged)) :=
  have q := ClientProof.quiet_of env rng hw hq
  ClientProof.connect_same env rng hw hd q hw hd' q (fun _ _ => rfl)

/-- A read that ends within the last three bytes of a record, after its header, is the end of the client: it panics. For every handshake that
completes with the records `before`, `w` and `after`, when `w` comes after the reads `reads` of `before` that do not complete it. -/
theorem C46_client_cut (env : ClientEnv) (rng before after all reads more : List Bytes) (w part missing : Bytes) (s : TlsStream) (h : Option ClientHandshake)
    (hw : ∀ r ∈ before ++ w :: after, Tls13.WholeRecord r) (hq : ∀ r ∈ before ++ w :: after, ¬ ∃ c, Tls13.IsRecord 21#8 c r)
    (hd : Tls13.Pieces 2048 [] (before ++ w :: after) all) (hok : ClientConnection.connect env rng ⟨all, [], []⟩ = (.ok s, h))
    (hd' : Tls13.Pieces 2048 [] before reads) (hn : ∀ s h, ClientConnection.connect env rng ⟨reads, [], []⟩ ≠ (.ok s, h))
    (hs : w = part ++ missing) (h5 : 5 ≤ part.length) (hm : missing ≠ []) (hm3 : missing.length ≤ 3) (hl : part.length ≤ 2048) :
    (ClientConnection.connect env rng ⟨reads ++ part :: more, [], []⟩).1 = .panic := by
  have hqa : ∀ k, ClientProof.Quiet env (before ++ w :: after) k := fun k a r b hab _ _ _ => hq r (by rw [← hab]; simp)
  have hqb : ∀ k, ClientProof.Quiet env before k := fun k a r b hab _ _ _ => hq r (by rw [← hab]; simp)
  have hwb : ∀ r ∈ before, Tls13.WholeRecord r := fun r hr => hw r (by simp [hr])
  obtain ⟨n, g, k, ka, hb, hk, hka⟩ := ClientProof.connect_opened hok
  have hi : ClientProof.Idle k := by
    have := ClientProof.hello_idle env (ClientProof.first n g) ⟨rfl, rfl, rfl⟩
    rwa [hk] at this
  have o := ClientProof.run_outcome env hk hw hd (hqa k)
  rw [hka, ClientProof.feed_append, Step.bind_eq] at o
  obtain ⟨k1, hk1⟩ : ∃ k1, ClientProof.feed env before k = (.ok (), k1) := by
    rcases hk1 : ClientProof.feed env before k with ⟨r, k1⟩
    rw [hk1] at o
    cases r with
    | ok u => exact ⟨k1, rfl⟩
    | err e => exact absurd o.1 (by simp)
    | panic => cases o
  have hr1 : k1.state ≠ .ready := by
    intro hr
    obtain ⟨s, hs, _⟩ := ClientProof.connect_ready env hb hk hwb hd' (hqb k) hk1 hr
    exact hn _ _ hs
  rw [ClientProof.connect_eq env hb]
  obtain ⟨fuel, hf⟩ : ∃ fuel, ((reads ++ part :: more).map List.length).sum + (reads ++ part :: more).length + 2 = fuel + 1 + reads.length :=
    ⟨((reads ++ part :: more).map List.length).sum + (part :: more).length + 1, by rw [List.length_append]; omega⟩
  obtain ⟨h', e1, ⟨t, rfl, ht⟩, _⟩ := ClientProof.reads_then env le_rfl (later := part :: more) hr1 (fuel + 1) reads [] before [] _ k hd' hwb hk1 (ClientProof.withReads_alike hi) hi.1 (hqb k)
  have hp : Record.fromRaw part = .panic := by
    rw [ClientProof.part_fromRaw (hw w (by simp)) hs hm, if_neg (by omega)]
  have hpn : part ≠ [] := fun h0 => by rw [h0] at h5; simp at h5
  have hrun : ∃ k2, ClientHandshake.doHandshake env (ClientProof.withReads (reads ++ part :: more) (ClientProof.first n g)) = (.panic, k2) := by
    rw [ClientProof.run_reads env hk, hf, e1]
    unfold ClientHandshake.readLoop
    rw [Step.bind_get, if_neg hr1]
    have hrd : (ClientHandshake.onStream fun s => s.tcpRead 2048) { k1 with stream := t } = (.ok part, { k1 with stream := { t with stream := { t.stream with incoming := more } } }) := by
      unfold ClientHandshake.onStream TlsStream.tcpRead
      simp only [ht.pending']
      rw [List.take_of_length_le hl, List.drop_of_length_le hl, if_neg hpn, if_pos rfl]
    rw [Step.bind_of_ok hrd]
    simp only [if_true, List.length_nil, Nat.add_zero]
    rw [Step.bind_eq]
    unfold ClientHandshake.recordsLoop
    rw [if_pos (Or.inl (by omega)), if_pos rfl]
    have hsl : (sliceFrom part 0 : Res TlsError Bytes) = .ok part := by
      unfold sliceFrom
      rw [if_pos (by omega), List.drop_zero]
    rw [Step.bind_lift_ok hsl, hp]
    exact ⟨_, rfl⟩
  obtain ⟨k2, hk2⟩ := hrun
  unfold ClientProof.conclude ClientHandshake.doHandshakeWithError
  rw [hk2]

/-- When the read with the last piece of a record `w` also has the beginning of the next record `v`, the client handles `w` again when the rest of
`v` arrives: the outcome is the one of a server that sends `w` twice. `before` are the records that arrived before. -/
theorem C46_client_replayed (env : ClientEnv) (rng : List Bytes) (w v p0 p1 x y : Bytes) (before reads records more reads' : List Bytes)
    (hd0 : Tls13.Pieces 2048 [] before reads) (hw0 : Tls13.Begun w p0) (hwp : w = p0 ++ p1) (hv : Tls13.Begun v x) (hvy : v = x ++ y)
    (l0 : p0.length ≤ 2048) (l1 : (p1 ++ x).length ≤ 2048) (l2 : y.length ≤ 2048)
    (hd : Tls13.Pieces 2048 [] records more) (hw : ∀ r ∈ before ++ w :: w :: v :: records, Tls13.WholeRecord r)
    (hd' : Tls13.Pieces 2048 [] (before ++ w :: w :: v :: records) reads')
    (hq : ∀ a r b, before ++ w :: w :: v :: records = a ++ r :: b → (∃ c, Tls13.IsRecord 21#8 c r) → ∀ reads, Tls13.Pieces 2048 [] a reads →
      ∀ s h, ClientConnection.connect env rng ⟨reads, [], []⟩ ≠ (.ok s, h)) :
    SameResult (ClientConnection.connect env rng ⟨reads ++ p0 :: (p1 ++ x) :: y :: more, [], []⟩).1 (ClientConnection.connect env rng ⟨reads', [], []⟩).1 := by
  have q := ClientProof.quiet_of env rng hw hq
  refine (ClientProof.connect_alike env rng (records := before ++ w :: w :: v :: records) (fun n g k hb hk => ?_)
    (fun n g k hb hk => ClientProof.run_outcome env hk hw hd' (q k ⟨n, g, hb, hk⟩)) (fun _ _ => rfl)).1
  have hi : ClientProof.Idle k := by
    have := ClientProof.hello_idle env (ClientProof.first n g) ⟨rfl, rfl, rfl⟩
    rwa [hk] at this
  rw [ClientProof.run_reads env hk]
  have hp0 := List.length_pos_iff.2 hw0.1
  obtain ⟨fuel, hf, hf'⟩ : ∃ fuel, ((reads ++ p0 :: (p1 ++ x) :: y :: more).map List.length).sum + (reads ++ p0 :: (p1 ++ x) :: y :: more).length + 2 = fuel + reads.length ∧ more.length + 3 < fuel := by
    refine ⟨((reads ++ p0 :: (p1 ++ x) :: y :: more).map List.length).sum + (p0 :: (p1 ++ x) :: y :: more).length + 2, by rw [List.length_append]; omega, ?_⟩
    simp only [List.length_cons]
    omega
  rw [hf]
  exact ClientProof.reads_before env le_rfl fuel (fun h' k' ha' hb' hp' => ClientProof.reads_replay env hw0 hwp hv hvy l0 l1 l2 hd
    (fun r hr => hw r (List.mem_append_right _ hr)) hf' ha' hb' hp') reads [] before _ _ hd0 hw (ClientProof.withReads_alike hi) hi.1 (q k ⟨n, g, hb, hk⟩)

/-- The hypotheses are met by a ClientHello-typed record and an alert, in one read or in two. -/
example : let records : List Bytes := [[22, 3, 3, 0, 1, 1], [21, 3, 3, 0, 2, 2, 40]]
    (∀ w ∈ records, Tls13.WholeRecord w) ∧ Tls13.Delivers 4096 records records ∧ Tls13.Delivers 4096 records [records.flatten] ∧
    (∀ a w b, records = a ++ w :: b → (∃ c, Tls13.IsRecord 21#8 c w) → ∀ s h, ServerConnection.accept plainServer [] ⟨a, [], []⟩ ≠ (.ok s, h)) := by
  refine ⟨?_, Tls13.delivers_single (by decide), Tls13.delivers_all (by decide) (by decide), ?_⟩
  · intro w hw
    simp only [List.mem_cons, List.not_mem_nil, or_false] at hw
    rcases hw with rfl | rfl
    · exact ⟨22#8, [1], by decide, 3, 3, by decide, by decide⟩
    · exact ⟨21#8, [2, 40], by decide, 3, 3, by decide, by decide⟩
  · intro a w b hab _ s h hc
    have : a = [] ∨ a = [[22, 3, 3, 0, 1, 1]] := by
      match a, hab with
      | [], _ => exact Or.inl rfl
      | [x], hab => 
        right
        simp only [List.cons_append, List.nil_append, List.cons.injEq] at hab
        rw [← hab.1]
      | x :: y :: l, hab =>
        have := congrArg List.length hab
        simp at this
    rcases this with rfl | rfl
    · have h1 : (ServerConnection.accept plainServer [] ⟨[], [], []⟩).1 = .err .brokenPipe := rfl
      rw [hc] at h1
      cases h1
    · have h1 : (ServerConnection.accept plainServer [] ⟨[[22, 3, 3, 0, 1, 1]], [], []⟩).1 = .err .decodeError := rfl
      rw [hc] at h1
      cases h1

/-! ### C59 -/

theorem whole_of_inserted {P : Bytes → Prop} {l l' : List Bytes} (h : Tls13.Inserted P l l') (hl : ∀ w ∈ l, Tls13.WholeRecord w) (hp : ∀ w, P w → Tls13.WholeRecord w) :
    ∀ w ∈ l', Tls13.WholeRecord w := by
  induction h with
  | nil => exact hl
  | keep v l l' _ ih =>
    intro w hw
    rcases List.mem_cons.1 hw with rfl | hw
    · exact hl _ (by simp)
    · exact ih (fun u hu => hl u (by simp [hu])) w hw
  | add v l l' hv _ ih =>
    intro w hw
    rcases List.mem_cons.1 hw with rfl | hw
    · exact hp _ hv
    · exact ih hl w hw

/-- A change_cipher_spec record, whatever its content. -/
def IsCcs (w : Bytes) : Prop := ∃ c, Tls13.IsRecord 20#8 c w

theorem ccs_whole {w : Bytes} (h : IsCcs w) : Tls13.WholeRecord w := by
  obtain ⟨c, hc⟩ := h
  exact ⟨20#8, c, by decide, hc⟩

theorem ccs_not_alert {w : Bytes} (h : ∃ c, Tls13.IsRecord 21#8 c w) : ¬ IsCcs w := by
  rintro ⟨c, v1, v2, _, h1⟩
  obtain ⟨c', v1', v2', _, h2⟩ := h
  rw [h1] at h2
  cases (List.cons.inj h2).1

/-- Server: change_cipher_spec records put anywhere after the first record of the client, any number of them and with any content, change
nothing about the outcome of the handshake, the bytes the server sends when it succeeds, the keys and the secrets logged; also if the reads
deliver the records in other groups then. -/
theorem C59_server (env : ServerEnv) (rng : List Bytes) (first : Bytes) (records records' reads reads' : List Bytes)
    (hw : ∀ w ∈ first :: records, Tls13.WholeRecord w) (hi : Tls13.Inserted IsCcs records records')
    (hd : Tls13.Delivers 4096 (first :: records) reads) (hd' : Tls13.Delivers 4096 (first :: records') reads')
    (hq : ∀ a w b, first :: records = a ++ w :: b → (∃ c, Tls13.IsRecord 21#8 c w) → ∀ s h, ServerConnection.accept env rng ⟨a, [], []⟩ ≠ (.ok s, h)) :
    SameResult (ServerConnection.accept env rng ⟨reads, [], []⟩).1 (ServerConnection.accept env rng ⟨reads', [], []⟩).1 ∧
    ((ServerConnection.accept env rng ⟨reads, [], []⟩).1 ≠ .panic →
      (ServerConnection.accept env rng ⟨reads', [], []⟩).2.logged = (ServerConnection.accept env rng ⟨reads, [], []⟩).2.logged) := by
  have q := ServerProof.quiet_of env rng hw (delivered_le hd) hq
  have hi2 : Tls13.Inserted IsCcs (first :: records) (first :: records') := .keep _ _ _ hi
  have hw' := whole_of_inserted hi2 hw fun w => ccs_whole
  refine ServerProof.accept_same env rng hw hd q hw' hd' ?_ (ServerProof.feed_ccs_first env hi first _)
  intro a w b hab k' hk' hr hal
  cases a with
  | nil =>
    refine q [] w records ?_ k' hk' hr hal
    rw [List.nil_append] at hab ⊢
    rw [(List.cons.inj hab).1]
  | cons v a =>
    rw [List.cons_append] at hab
    obtain ⟨rfl, hab2⟩ := List.cons.inj hab
    obtain ⟨c, d, hcd, hca⟩ := hi.split a w b hab2 (ccs_not_alert hal)
    refine q (v :: c) w d (by rw [List.cons_append, hcd]) k' ?_ hr hal
    rw [← ServerProof.feed_ccs_first env hca]
    exact hk'

/-- Client: the same for change_cipher_spec records anywhere after the first record of the server. -/
theorem C59_client (env : ClientEnv) (rng : List Bytes) (first : Bytes) (records records' reads reads' : List Bytes)
    (hw : ∀ w ∈ first :: records, Tls13.WholeRecord w) (hi : Tls13.Inserted IsCcs records records')
    (hd : Tls13.Pieces 2048 [] (first :: records) reads) (hd' : Tls13.Pieces 2048 [] (first :: records') reads')
    (hq : ∀ a w b, first :: records = a ++ w :: b → (∃ c, Tls13.IsRecord 21#8 c w) → ∀ reads, Tls13.Pieces 2048 [] a reads →
      ∀ s h, ClientConnection.connect env rng ⟨reads, [], []⟩ ≠ (.ok s, h)) :
    SameResult (ClientConnection.connect env rng ⟨reads, [], []⟩).1 (ClientConnection.connect env rng ⟨reads', [], []⟩).1 ∧
    ((ClientConnection.connect env rng ⟨reads, [], []⟩).1 ≠ .panic →
      (ClientConnection.connect env rng ⟨reads', [], []⟩).2.map (·.logged) = (ClientConnection.connect env rng ⟨reads, [], []⟩).2.map (·.logged)) := by
  have q := ClientProof.quiet_of env rng hw hq
  have hi2 : Tls13.Inserted IsCcs (first :: records) (first :: records') := .keep _ _ _ hi
  have hw' := whole_of_inserted hi2 hw fun w => ccs_whole
  refine ClientProof.connect_same env rng hw hd q hw' hd' ?_ (fun k _ => ClientProof.feed_ccs_first env hi first _)
  intro k hk a w b hab k' hk' hr hal
  cases a with
  | nil =>
    refine q k hk [] w records ?_ k' hk' hr hal
    rw [List.nil_append] at hab ⊢
    rw [(List.cons.inj hab).1]
  | cons v a =>
    rw [List.cons_append] at hab
    obtain ⟨rfl, hab2⟩ := List.cons.inj hab
    obtain ⟨c, d, hcd, hca⟩ := hi.split a w b hab2 (ccs_not_alert hal)
    refine q k hk (v :: c) w d (by rw [List.cons_append, hcd]) k' ?_ hr hal
    rw [← ClientProof.feed_ccs_first env hca]
    exact hk'

/-- The insertion relation: one change_cipher_spec record between two other records and one at the end. -/
example : Tls13.Inserted IsCcs [[22, 3, 3, 0, 1, 1], [23, 3, 3, 0, 1, 7]] [[22, 3, 3, 0, 1, 1], [20, 3, 3, 0, 1, 1], [23, 3, 3, 0, 1, 7], [20, 3, 3, 0, 0]] :=
  .keep _ _ _ (.add _ _ _ ⟨[1], 3, 3, by decide, by decide⟩ (.keep _ _ _ (.add _ _ _ ⟨[], 3, 3, by decide, by decide⟩ .nil)))

end ATLS
