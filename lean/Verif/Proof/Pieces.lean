import Verif.Proof.Deliver
import Verif.Spec.Pieces
/-
The client's handshake when reads cut records.
-/
namespace ATLS.ClientProof
open ATLS ATLS.Model ATLS.Spec ClientHandshake FlowProof

/-- What `Record::from_raw` makes of the beginning of a record. -/
theorem part_fromRaw {w part missing : Bytes} (hw : Tls13.WholeRecord w) (hs : w = part ++ missing) (hm : missing ≠ []) :
    Record.fromRaw part = (if part.length < 5 ∨ 4 ≤ missing.length then .err .decodeError else .panic) := by
  obtain ⟨type, content, ht, v1, v2, hc, rfl⟩ := hw
  unfold Record.fromRaw
  by_cases h5 : part.length < 5
  · rw [if_pos h5, if_pos (Or.inl h5)]
  rw [if_neg h5]
  obtain ⟨b1, b2, b3, b4, b5, rest, rfl⟩ : ∃ b1 b2 b3 b4 b5 rest, part = b1 :: b2 :: b3 :: b4 :: b5 :: rest := by
    match part, h5 with
    | b1 :: b2 :: b3 :: b4 :: b5 :: rest, _ => exact ⟨_, _, _, _, _, _, rfl⟩
    | [], h => simp at h
    | [_], h => simp at h
    | [_, _], h => simp at h
    | [_, _, _], h => simp at h
    | [_, _, _, _], h => simp at h
  rw [RecProof.beBytes2] at hs
  simp only [List.cons_append, List.nil_append, List.cons.injEq] at hs
  obtain ⟨rfl, rfl, rfl, rfl, rfl, rfl⟩ := hs
  have hlen : (BitVec.ofNat 8 ((rest ++ missing).length / 256)).toNat * 256 + (BitVec.ofNat 8 (rest ++ missing).length).toNat = (rest ++ missing).length := by
    simp only [BitVec.toNat_ofNat]
    omega
  have hml := List.length_pos_iff.2 hm
  have hrl : rest.length < (rest ++ missing).length := by
    rw [List.length_append]; omega
  obtain ⟨t, ht⟩ : ∃ t : RecordType, (RecordType.new type : Res TlsError RecordType) = .ok t := by
    simp only [List.mem_cons, List.not_mem_nil, or_false] at ht
    rcases ht with rfl | rfl | rfl | rfl
    · exact ⟨.changeCipherSpec, rfl⟩
    · exact ⟨.alert, rfl⟩
    · exact ⟨.handshake, rfl⟩
    · exact ⟨.applicationData, rfl⟩
  simp only [idx, List.getElem?_cons_zero, List.getElem?_cons_succ, Res.ok_bind]
  rw [ht, Res.ok_bind, hlen]
  by_cases h2 : 4 ≤ missing.length
  · rw [if_pos (by simp only [List.length_cons, List.length_append]; omega), if_pos (Or.inr h2)]
  · rw [if_neg (by simp only [List.length_cons, List.length_append]; omega), if_neg (by simp only [List.length_cons]; omega)]
    rw [show (slice (type :: v1 :: v2 :: BitVec.ofNat 8 ((rest ++ missing).length / 256) :: BitVec.ofNat 8 (rest ++ missing).length :: rest) 5
      (5 + (rest ++ missing).length) : Res TlsError Bytes) = .panic by
        unfold slice
        rw [if_neg]
        simp only [List.length_cons]
        omega]
    unfold slice
    rfl

theorem begun_fromRaw {w part : Bytes} (hw : Tls13.WholeRecord w) (hb : Tls13.Begun w part) : Record.fromRaw part = .err .decodeError := by
  obtain ⟨_, missing, hs, hm, hc⟩ := hb
  rw [part_fromRaw hw hs hm, if_pos hc]

/-- A read of whole records and the beginning of one: the beginning is kept. -/
theorem records_begin (env : ClientEnv) (rx part : Bytes) (hp : Record.fromRaw part = .err .decodeError) (hne : part ≠ []) :
    ∀ (g : List Bytes) (fuel offset : Nat) (h : ClientHandshake), (∀ w ∈ g, Tls13.WholeRecord w) →
    rx.drop offset = g.flatten ++ part → offset ≤ rx.length → g.flatten.length < fuel →
    recordsLoop env rx fuel offset [] h = (feed env g >>= fun _ => pure part) h
  | [], fuel, offset, h, _, hd, ho, hf => by
    obtain ⟨n, rfl⟩ : ∃ n, fuel = n + 1 := ⟨fuel - 1, by omega⟩
    have hl : offset < rx.length := by
      have := congrArg List.length hd
      have := List.length_pos_iff.2 hne
      simp only [List.length_drop, List.flatten_nil, List.nil_append] at *
      omega
    unfold recordsLoop
    rw [if_pos (Or.inl hl), if_pos rfl]
    have hsl : (sliceFrom rx offset : Res TlsError Bytes) = .ok (rx.drop offset) := by
      unfold sliceFrom
      rw [if_pos ho]
    rw [Step.bind_lift_ok hsl, hd, List.flatten_nil, List.nil_append, hp]
    simp only [if_true]
    rfl
  | w :: ws, fuel, offset, h, hg, hd, ho, hf => by
    obtain ⟨hw5, r, hr⟩ := whole_fromRaw (hg w (by simp))
    have hlen := congrArg List.length hd
    simp only [List.flatten_cons, List.length_append, List.length_drop, List.append_assoc] at hf hd hlen
    obtain ⟨n, rfl⟩ : ∃ n, fuel = n + 1 := ⟨fuel - 1, by omega⟩
    have hr0 := hr []
    rw [List.append_nil] at hr0
    unfold recordsLoop
    rw [if_pos (Or.inl (by omega)), if_pos rfl]
    have hsl : (sliceFrom rx offset : Res TlsError Bytes) = .ok (rx.drop offset) := by
      unfold sliceFrom
      rw [if_pos ho]
    rw [Step.bind_lift_ok hsl, hd, hr]
    simp only []
    rw [feed, Step.bind_eq, Step.bind_eq, Step.bind_lift_ok hr0]
    simp only []
    rw [Step.bind_eq]
    rcases handleRecord env r h with ⟨_ | _ | _, h'⟩
    · simp only []
      rw [if_neg (by simp only [List.length_nil]; omega)]
      rw [records_begin env rx part hp hne ws n (offset + w.length) h' (fun v hv => hg v (by simp [hv])) ?_ (by omega) (by omega), Step.bind_eq]
      rw [← List.drop_drop, hd, List.drop_left]
    · rfl
    · rfl

/-- What was kept and a read, whole records together. -/
theorem records_held (env : ClientEnv) (rx buf : Bytes) (hb : buf ≠ []) : ∀ (g : List Bytes) (fuel offset : Nat) (h : ClientHandshake), (∀ w ∈ g, Tls13.WholeRecord w) →
    g ≠ [] → buf.drop offset = g.flatten → offset ≤ buf.length → g.flatten.length < fuel →
    recordsLoop env rx fuel offset buf h = (feed env g >>= fun _ => pure []) h
  | [], _, _, _, _, hn, _, _, _ => absurd rfl hn
  | w :: ws, fuel, offset, h, hg, _, hd, ho, hf => by
    obtain ⟨hw5, r, hr⟩ := whole_fromRaw (hg w (by simp))
    have hlen := congrArg List.length hd
    simp only [List.flatten_cons, List.length_append, List.length_drop] at hf hd hlen
    obtain ⟨n, rfl⟩ : ∃ n, fuel = n + 1 := ⟨fuel - 1, by omega⟩
    have hr0 := hr []
    rw [List.append_nil] at hr0
    unfold recordsLoop
    rw [if_pos (Or.inr hb), if_neg hb]
    have hsl : (sliceFrom buf offset : Res TlsError Bytes) = .ok (buf.drop offset) := by
      unfold sliceFrom
      rw [if_pos ho]
    rw [Step.bind_lift_ok hsl, hd, hr]
    simp only []
    rw [feed, Step.bind_eq, Step.bind_eq, Step.bind_lift_ok hr0]
    simp only []
    rw [Step.bind_eq]
    rcases handleRecord env r h with ⟨_ | _ | _, h'⟩
    · simp only []
      by_cases hws : ws = []
      · subst hws
        rw [if_pos (by simp at hlen; omega)]
        rfl
      · obtain ⟨v, ws, rfl⟩ := List.exists_cons_of_ne_nil hws
        have hv := (whole_fromRaw (hg v (by simp))).1
        rw [if_neg (by simp only [List.flatten_cons, List.length_append] at hlen; omega)]
        rw [records_held env rx buf hb (v :: ws) n (offset + w.length) h' (fun v hv => hg v (by simp [hv])) (by simp) ?_ (by omega) (by omega), Step.bind_eq]
        rw [← List.drop_drop, hd, List.drop_left]
    · rfl
    · rfl

/-- One read, for what the loop over its records makes of it. -/
theorem read_pieces (env : ClientEnv) {g : List Bytes} {rx held held' : Bytes} {rest : List Bytes} (fuel : Nat) (h : ClientHandshake) (hne : rx ≠ [])
    (hl : rx.length ≤ 2048) (hi : h.stream.stream.incoming = rx :: rest) (hs : h.state ≠ .ready)
    (hrec : ∀ h' : ClientHandshake, recordsLoop env rx (rx.length + (if held = [] then [] else held ++ rx).length + 1) 0 (if held = [] then [] else held ++ rx) h' =
      (feed env g >>= fun _ => pure held') h') :
    readLoop env (fuel + 1) held h = (do
      feed env g
      onStream TlsStream.flush
      readLoop env fuel held') { h with stream := { h.stream with stream := { h.stream.stream with incoming := rest } } } := by
  conv_lhs => unfold readLoop
  rw [Step.bind_get, if_neg hs]
  have hr : (onStream fun s => s.tcpRead 2048) h = (.ok rx, { h with stream := { h.stream with stream := { h.stream.stream with incoming := rest } } }) := by
    unfold onStream TlsStream.tcpRead
    simp only [hi]
    rw [List.take_of_length_le hl, List.drop_of_length_le hl, if_neg hne, if_pos rfl]
  refine (Step.bind_of_ok hr).trans ?_
  simp only []
  rw [Step.bind_eq, hrec, Step.bind_eq, Step.bind_eq]
  obtain ⟨h1, hh1⟩ : ∃ h1 : ClientHandshake, h1 = { h with stream := { h.stream with stream := { h.stream.stream with incoming := rest } } } := ⟨_, rfl⟩
  rw [← hh1]
  rcases feed env g h1 with ⟨_ | _ | _, h'⟩ <;> rfl

theorem flatten_ne {g : List Bytes} (hg : ∀ w ∈ g, Tls13.WholeRecord w) (hne : g ≠ []) : g.flatten ≠ [] := by
  cases g with
  | nil => exact absurd rfl hne
  | cons w ws =>
    obtain ⟨hw5, _⟩ := whole_fromRaw (hg w (by simp))
    intro e
    have := congrArg List.length e
    simp only [List.flatten_cons, List.length_append, List.length_nil] at this
    omega

/-- One read in general: it has the effect of the records `g` and leaves `held'`. -/
theorem one_read (env : ClientEnv) {cap : Nat} (hcap : cap ≤ 2048) {held : Bytes} {records : List Bytes} {rx : Bytes} {reads : List Bytes} (hp : Tls13.Pieces cap held records (rx :: reads))
    (hw : ∀ w ∈ records, Tls13.WholeRecord w) : ∃ (g rest : List Bytes) (held' : Bytes), records = g ++ rest ∧ Tls13.Pieces cap held' rest reads ∧
      ∀ (fuel : Nat) (later : List Bytes) (h : ClientHandshake), h.stream.stream.incoming = rx :: later → h.state ≠ .ready →
        readLoop env (fuel + 1) held h = (do
          feed env g
          onStream TlsStream.flush
          readLoop env fuel held') { h with stream := { h.stream with stream := { h.stream.stream with incoming := later } } } := by
  cases hp with
  | @whole g records reads hg hl hr =>
    refine ⟨g, records, [], rfl, hr, fun fuel later h hi hs => ?_⟩
    have hg' : ∀ w ∈ g, Tls13.WholeRecord w := fun w h => hw w (by simp [h])
    refine read_pieces env fuel h (flatten_ne hg' hg) (by omega) hi hs fun h' => ?_
    rw [if_pos rfl]
    exact records_feed env _ g _ 0 _ hg' (by simp) (by omega) (by simp)
  | @begin g records reads w part hb hl hr =>
    refine ⟨g, w :: records, part, rfl, hr, fun fuel later h hi hs => ?_⟩
    have hg' : ∀ w ∈ g, Tls13.WholeRecord w := fun w h => hw w (by simp [h])
    refine read_pieces env fuel h (by simp [hb.1]) (by omega) hi hs fun h' => ?_
    rw [if_pos rfl]
    exact records_begin env _ part (begun_fromRaw (hw w (by simp)) hb) hb.1 g _ 0 _ hg' (by simp) (by omega) (by simp)
  | @more held piece w records reads hh hpc hb hl hr =>
    refine ⟨[], w :: records, held ++ rx, rfl, hr, fun fuel later h hi hs => ?_⟩
    refine read_pieces env fuel h hpc (by omega) hi hs fun h' => ?_
    rw [if_neg hh]
    unfold recordsLoop
    rw [if_pos (Or.inr hb.1), if_neg hb.1]
    have hsl : (sliceFrom (held ++ rx) 0 : Res TlsError Bytes) = .ok (held ++ rx) := by
      unfold sliceFrom
      rw [if_pos (by omega), List.drop_zero]
    rw [Step.bind_lift_ok hsl, begun_fromRaw (hw w (by simp)) hb]
    simp only []
    rw [if_neg hb.1]
    rfl
  | @last held piece g records reads hh hpc hl hr =>
    refine ⟨(held ++ piece) :: g, records, [], rfl, hr, fun fuel later h hi hs => ?_⟩
    refine read_pieces env fuel h (by simp [hpc]) (by omega) hi hs fun h' => ?_
    rw [if_neg hh]
    have hg' : ∀ w ∈ (held ++ piece) :: g, Tls13.WholeRecord w := fun w h => hw w (by simp at h ⊢; tauto)
    exact records_held env _ _ (by simp [hh]) ((held ++ piece) :: g) _ 0 _ hg' (by simp) (by simp) (by omega) (by simp)

/-- What one read does is what handling its records does. -/
theorem outcome_step (env : ClientEnv) {g rest reads i : List Bytes} {rx held held' : Bytes} {h k : ClientHandshake} (n : Nat)
    (hw : ∀ w ∈ g ++ rest, Tls13.WholeRecord w)
    (hstep : ∀ h : ClientHandshake, h.stream.stream.incoming = rx :: reads → h.state ≠ .ready →
      readLoop env (n + 1) held h = (do
        feed env g
        onStream TlsStream.flush
        readLoop env n held') { h with stream := { h.stream with stream := { h.stream.stream with incoming := reads } } })
    (ha : Alike i (rx :: reads) k h) (hb : h.stream.buffer = [])
    (hp : ∀ a w b, a ++ w :: b = g ++ rest → ∀ k', feed env a k = (.ok (), k') → k'.state = .ready → ¬ ∃ c, Tls13.IsRecord 21#8 c w)
    (hrest : ∀ h' k', Alike i reads k' h' → h'.stream.buffer = [] →
      (∀ a w b, a ++ w :: b = rest → ∀ k'', feed env a k' = (.ok (), k'') → k''.state = .ready → ¬ ∃ c, Tls13.IsRecord 21#8 c w) →
      Outcome (feed env rest k') (readLoop env n held' h')) :
    Outcome (feed env (g ++ rest) k) (readLoop env (n + 1) held h) := by
  obtain ⟨s, hks, hs⟩ := id ha
  subst hks
  by_cases hst : k.state = .ready
  · rw [ready_feed env hst _ hw hp]
    unfold Outcome readLoop
    rw [Step.bind_get]
    simp only []
    rw [if_pos hst, if_pos hst]
    exact ⟨rfl, alike_self ha, hb⟩
  rw [hstep { k with stream := s } hs.pending' hst]
  have ha' : Alike i reads k { k with stream := { s with stream := { s.stream with incoming := reads } } } :=
    ⟨_, rfl, hs.protection, hs.output, hs.calm, hs.calm', hs.pending, rfl⟩
  obtain ⟨h1, h2⟩ := feed_rel env g _ _ ha'
  rw [feed_append, Step.bind_eq, Step.bind_eq]
  rcases hk1 : feed env g k with ⟨r, k1⟩
  rcases hk2 : feed env g { k with stream := { s with stream := { s.stream with incoming := reads } } } with ⟨r', h1'⟩
  rw [hk1, hk2] at h1 h2
  simp only [] at h1 h2
  subst h1
  cases r with
  | err e =>
    exact ⟨rfl, alike_self h2⟩
  | panic => exact rfl
  | ok u =>
    simp only []
    obtain ⟨h2', e1, e2, e3⟩ := alike_flush h2
    rw [Step.bind_of_ok e1]
    refine hrest h2' k1 e2 e3 ?_
    intro a w b hab k' hk'
    refine hp (g ++ a) w b (by rw [List.append_assoc, hab]) k' ?_
    rw [feed_append, Step.bind_of_ok hk1]
    exact hk'

theorem reads_pieces (env : ClientEnv) {cap : Nat} (hcap : cap ≤ 2048) : ∀ (reads : List Bytes) (held : Bytes) (records : List Bytes) (fuel : Nat) (i : List Bytes) (h k : ClientHandshake),
    Tls13.Pieces cap held records reads → (∀ w ∈ records, Tls13.WholeRecord w) → reads.length < fuel →
    Alike i reads k h → h.stream.buffer = [] →
    (∀ a w b, a ++ w :: b = records → ∀ k', feed env a k = (.ok (), k') → k'.state = .ready → ¬ ∃ c, Tls13.IsRecord 21#8 c w) →
    Outcome (feed env records k) (readLoop env fuel held h)
  | [], held, records, fuel, i, h, k, hpc, hw, hf, ha, hb, hp => by
    cases hpc
    exact reads_feed env [] fuel i h k (by simp) hf ha hb hp
  | rx :: reads, held, records, fuel, i, h, k, hpc, hw, hf, ha, hb, hp => by
    obtain ⟨n, rfl⟩ : ∃ n, fuel = n + 1 := ⟨fuel - 1, by omega⟩
    obtain ⟨g, rest, held', rfl, hpc', hstep⟩ := one_read env hcap hpc hw
    exact outcome_step env n hw (hstep n reads) ha hb hp fun h' k' ha' hb' hp' =>
      reads_pieces env hcap reads held' rest n i h' k' hpc' (fun w h => hw w (by simp [h])) (by simpa using hf) ha' hb' hp'

/-- After the reads that deliver the records, the client goes on with the next read. -/
theorem reads_then (env : ClientEnv) {cap : Nat} (hcap : cap ≤ 2048) {later : List Bytes} {k1 : ClientHandshake} (hk1 : k1.state ≠ .ready) (fuel : Nat) :
    ∀ (reads : List Bytes) (held : Bytes) (records : List Bytes) (i : List Bytes) (h k : ClientHandshake),
    Tls13.Pieces cap held records reads → (∀ w ∈ records, Tls13.WholeRecord w) → feed env records k = (.ok (), k1) →
    Alike i (reads ++ later) k h → h.stream.buffer = [] →
    (∀ a w b, a ++ w :: b = records → ∀ k', feed env a k = (.ok (), k') → k'.state = .ready → ¬ ∃ c, Tls13.IsRecord 21#8 c w) →
    ∃ h', readLoop env (fuel + reads.length) held h = readLoop env fuel [] h' ∧ Alike i later k1 h' ∧ h'.stream.buffer = []
  | [], held, records, i, h, k, hpc, hw, hk, ha, hb, hp => by
    cases hpc
    obtain rfl : k = k1 := congrArg Prod.snd hk
    exact ⟨h, rfl, ha, hb⟩
  | rx :: reads, held, records, i, h, k, hpc, hw, hk, ha, hb, hp => by
    obtain ⟨g, rest, held', rfl, hpc', hstep⟩ := one_read env hcap hpc hw
    obtain ⟨s, hks, hs⟩ := id ha
    subst hks
    have hst : k.state ≠ .ready := by
      intro hst
      rw [ready_feed env hst _ hw hp] at hk
      obtain rfl : k = k1 := congrArg Prod.snd hk
      exact hk1 hst
    have ha' : Alike i (reads ++ later) k { k with stream := { s with stream := { s.stream with incoming := reads ++ later } } } :=
      ⟨_, rfl, hs.protection, hs.output, hs.calm, hs.calm', hs.pending, rfl⟩
    obtain ⟨h1, h2⟩ := feed_rel env g _ _ ha'
    rw [feed_append, Step.bind_eq] at hk
    rw [List.length_cons, ← Nat.add_assoc, hstep _ (reads ++ later) { k with stream := s } hs.pending' hst, Step.bind_eq]
    rcases hk2 : feed env g k with ⟨r, k2⟩
    rcases hk3 : feed env g { k with stream := { s with stream := { s.stream with incoming := reads ++ later } } } with ⟨r', h1'⟩
    rw [hk2] at hk
    rw [hk2, hk3] at h1 h2
    simp only [] at h1 h2
    subst h1
    cases r with
    | err e => cases hk
    | panic => cases hk
    | ok u =>
      simp only [] at hk ⊢
      obtain ⟨h2', e1, e2, e3⟩ := alike_flush h2
      rw [Step.bind_of_ok e1]
      refine reads_then env hcap hk1 fuel reads held' rest i h2' k2 hpc' (fun w h => hw w (by simp [h])) hk e2 e3 ?_
      intro a w b hab k' hk'
      refine hp (g ++ a) w b (by rw [List.append_assoc, hab]) k' ?_
      rw [feed_append, Step.bind_of_ok hk2]
      exact hk'

/-- Reads that deliver records, before others. -/
theorem reads_before (env : ClientEnv) {cap : Nat} (hcap : cap ≤ 2048) {later rest i : List Bytes} (fuel : Nat)
    (hrest : ∀ h' k', Alike i later k' h' → h'.stream.buffer = [] →
      (∀ a w b, a ++ w :: b = rest → ∀ k'', feed env a k' = (.ok (), k'') → k''.state = .ready → ¬ ∃ c, Tls13.IsRecord 21#8 c w) →
      Outcome (feed env rest k') (readLoop env fuel [] h')) :
    ∀ (reads : List Bytes) (held : Bytes) (records : List Bytes) (h k : ClientHandshake),
    Tls13.Pieces cap held records reads → (∀ w ∈ records ++ rest, Tls13.WholeRecord w) → Alike i (reads ++ later) k h → h.stream.buffer = [] →
    (∀ a w b, a ++ w :: b = records ++ rest → ∀ k', feed env a k = (.ok (), k') → k'.state = .ready → ¬ ∃ c, Tls13.IsRecord 21#8 c w) →
    Outcome (feed env (records ++ rest) k) (readLoop env (fuel + reads.length) held h)
  | [], held, records, h, k, hpc, hw, ha, hb, hp => by
    cases hpc
    exact hrest h k ha hb hp
  | rx :: reads, held, records, h, k, hpc, hw, ha, hb, hp => by
    obtain ⟨g, records, held', rfl, hpc', hstep⟩ := one_read env hcap hpc (fun w h => hw w (by simp only [List.mem_append] at h ⊢; tauto))
    rw [List.append_assoc] at hw hp ⊢
    exact outcome_step env (fuel + reads.length) hw (hstep _ (reads ++ later)) ha hb hp fun h' k' ha' hb' hp' =>
      reads_before env hcap fuel hrest reads held' records h' k' hpc' (fun w h => hw w (List.mem_append_right _ h)) ha' hb' hp'

/-- The read with the last piece of a record also has the beginning of another one: when the next read arrives, the first record is handled again. -/
theorem reads_replay (env : ClientEnv) {w v p0 p1 x y : Bytes} {more records i : List Bytes} {h k : ClientHandshake} {fuel : Nat}
    (hw0 : Tls13.Begun w p0) (hwp : w = p0 ++ p1) (hv : Tls13.Begun v x) (hvy : v = x ++ y) (l0 : p0.length ≤ 2048) (l1 : (p1 ++ x).length ≤ 2048) (l2 : y.length ≤ 2048)
    (hpc : Tls13.Pieces 2048 [] records more) (hw : ∀ r ∈ w :: w :: v :: records, Tls13.WholeRecord r) (hf : more.length + 3 < fuel)
    (ha : Alike i (p0 :: (p1 ++ x) :: y :: more) k h) (hb : h.stream.buffer = [])
    (hp : ∀ a r b, a ++ r :: b = w :: w :: v :: records → ∀ k', feed env a k = (.ok (), k') → k'.state = .ready → ¬ ∃ c, Tls13.IsRecord 21#8 c r) :
    Outcome (feed env (w :: w :: v :: records) k) (readLoop env fuel [] h) := by
  obtain ⟨n, rfl⟩ : ∃ n, fuel = n + 3 := ⟨fuel - 3, by omega⟩
  have hww := hw w (by simp)
  have hvv := hw v (by simp)
  have hp0 := hw0.1
  have hx0 := hv.1
  have hy0 : y ≠ [] := by
    obtain ⟨_, m, hm, hm', _⟩ := hv
    rw [hvy] at hm
    rwa [List.append_cancel_left hm]
  obtain ⟨w5, r, hr⟩ := whole_fromRaw hww
  have hr0 := hr []
  rw [List.append_nil] at hr0
  have hvb := begun_fromRaw hvv hv
  have hvl : v.length = x.length + y.length := by rw [hvy, List.length_append]
  refine outcome_step env (g := []) (rest := w :: w :: v :: records) (held' := p0) (n + 2) (by simpa using hw) (fun h hi hs => ?_) ha hb (by simpa using hp) fun h' k' ha' hb' hp' => ?_
  · refine read_pieces env (n + 2) h hp0 l0 hi hs fun h' => ?_
    rw [if_pos rfl]
    exact records_begin env _ p0 (begun_fromRaw hww hw0) hp0 [] _ 0 _ (by simp) (by simp) (by omega) (by simp)
  refine outcome_step env (g := [w]) (rest := w :: v :: records) (held' := w ++ x) (n + 1) (by simpa using hw) (fun h hi hs => ?_) ha' hb' (by simpa using hp') fun h' k' ha' hb' hp' => ?_
  · refine read_pieces env (n + 1) h (by simp [hx0]) l1 hi hs fun h' => ?_
    rw [if_neg hp0, ← List.append_assoc, ← hwp]
    have hne : w ++ x ≠ [] := by simp [hx0]
    obtain ⟨m, hm⟩ : ∃ m, (p1 ++ x).length + (w ++ x).length + 1 = m + 2 := ⟨(p1 ++ x).length + (w ++ x).length - 1, by
      have := List.length_pos_iff.2 hne; omega⟩
    rw [hm]
    unfold recordsLoop
    rw [if_pos (Or.inr hne), if_neg hne]
    have hsl : (sliceFrom (w ++ x) 0 : Res TlsError Bytes) = .ok (w ++ x) := by
      unfold sliceFrom
      rw [if_pos (by omega), List.drop_zero]
    rw [Step.bind_lift_ok hsl, hr]
    simp only []
    simp only [feed]
    rw [Step.bind_eq, Step.bind_eq, Step.bind_lift_ok hr0]
    simp only []
    rw [Step.bind_eq]
    rcases handleRecord env r h' with ⟨_ | _ | _, h''⟩
    · simp only []
      have hxl := List.length_pos_iff.2 hx0
      rw [if_neg (by simp only [List.length_append]; omega)]
      unfold recordsLoop
      rw [if_pos (Or.inr hne), if_neg hne]
      have hsl : (sliceFrom (w ++ x) (0 + w.length) : Res TlsError Bytes) = .ok x := by
        unfold sliceFrom
        rw [if_pos (by simp), Nat.zero_add, List.drop_left]
      rw [Step.bind_lift_ok hsl, hvb]
      simp only []
      rw [if_neg hne]
      rfl
    · rfl
    · rfl
  refine outcome_step env (g := [w, v]) (rest := records) (held' := []) n (fun r h => hw r (List.mem_cons_of_mem _ h)) (fun h hi hs => ?_) ha' hb' (by simpa using hp') fun h' k' ha' hb' hp' => ?_
  · refine read_pieces env n h hy0 l2 hi hs fun h' => ?_
    have hne : w ++ x ≠ [] := by simp [hx0]
    rw [if_neg hne, List.append_assoc, ← hvy]
    refine records_held env _ (w ++ v) ?_ [w, v] _ 0 _ (by simp [hww, hvv]) (by simp) (by simp) (by omega) (by simp)
    rw [hvy]; simp [hx0]
  exact reads_pieces env le_rfl more [] records n i h' k' hpc (fun r h => hw r (by simp [h])) (by omega) ha' hb' hp'

end ATLS.ClientProof
