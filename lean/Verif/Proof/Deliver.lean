import Verif.Spec.Delivery
import Verif.Proof.ServerRel
import Verif.Proof.ClientRel
/-
The handshakes over reads that consist of whole records: a run is the sequence of its records, however they are grouped.
-/
namespace ATLS.FlowProof
open ATLS ATLS.Model ATLS.Spec

theorem whole_fromRaw {w : Bytes} (h : Tls13.WholeRecord w) : 5 ≤ w.length ∧ ∃ r, ∀ rest, Record.fromRaw (w ++ rest) = .ok (w.length, r) := by
  obtain ⟨type, content, ht, v1, v2, hl, rfl⟩ := h
  have : ∃ t : RecordType, t.code = type := by
    simp only [List.mem_cons, List.not_mem_nil, or_false] at ht
    rcases ht with rfl | rfl | rfl | rfl
    · exact ⟨.changeCipherSpec, rfl⟩
    · exact ⟨.alert, rfl⟩
    · exact ⟨.handshake, rfl⟩
    · exact ⟨.applicationData, rfl⟩
  obtain ⟨t, rfl⟩ := this
  have hlen : ([t.code, v1, v2] ++ beBytes 2 content.length ++ content).length = 5 + content.length := by
    simp only [List.length_append, beBytes_length, List.length_cons, List.length_nil]
  refine ⟨by omega, ⟨t, v1.toNat * 256 + v2.toNat, content.length,
    [t.code, v1, v2, BitVec.ofNat 8 (content.length / 256), BitVec.ofNat 8 content.length], content⟩, fun rest => ?_⟩
  rw [hlen]
  have := RecProof.fromRaw_header t v1 v2 content rest hl
  rw [RecProof.beBytes2]
  exact this

theorem alike_refl {s : TlsStream} (h : s.stream.failures = []) : Alike s.stream.incoming s.stream.incoming s s := ⟨rfl, rfl, h, h, rfl, rfl⟩

end ATLS.FlowProof

namespace ATLS.ServerProof
open ATLS ATLS.Model ATLS.Spec ServerHandshake FlowProof

/-- The records handled one after the other, without the reads. -/
def feed (env : ServerEnv) : List Bytes → M Unit
  | [] => pure ()
  | w :: ws => do
    let (_, r) ← .lift (Record.fromRaw w)
    handleRecord env r
    feed env ws

theorem feed_append (env : ServerEnv) : ∀ (a b : List Bytes) (h : ServerHandshake), feed env (a ++ b) h = (feed env a >>= fun _ => feed env b) h
  | [], b, h => rfl
  | w :: ws, b, h => by
    simp only [List.cons_append, feed]
    rw [Step.bind_eq, Step.bind_eq, Step.bind_eq]
    rcases Record.fromRaw w with ⟨_, r⟩ | e | _
    · simp only [Step.lift]
      rw [Step.bind_eq, Step.bind_eq]
      rcases handleRecord env r h with ⟨_ | _ | _, h'⟩
      · exact (feed_append env ws b h').trans (Step.bind_eq _ _ _)
      · rfl
      · rfl
    · rfl
    · rfl

theorem feed_rel (env : ServerEnv) {i j : List Bytes} : ∀ ws : List Bytes, Step.Rel (Alike i j) (feed env ws)
  | [] => Step.Rel.pure _
  | w :: ws => by
    unfold feed
    refine Step.Rel.bind (Step.Rel.lift _) fun a => ?_
    exact Step.Rel.bind (Rel.record _) fun _ => feed_rel env ws

theorem records_feed (env : ServerEnv) : ∀ (g : List Bytes) (fuel : Nat) (h : ServerHandshake), (∀ w ∈ g, Tls13.WholeRecord w) → g.flatten.length ≤ fuel →
    recordsLoop env fuel g.flatten h = feed env g h
  | [], fuel, h, _, _ => by cases fuel <;> rfl
  | w :: ws, fuel, h, hg, hf => by
    obtain ⟨hw5, r, hr⟩ := whole_fromRaw (hg w (by simp))
    simp only [List.flatten_cons, List.length_append] at hf ⊢
    obtain ⟨n, rfl⟩ : ∃ n, fuel = n + 1 := ⟨fuel - 1, by omega⟩
    have hne : w ++ ws.flatten ≠ [] := by
      intro e
      have := congrArg List.length e
      simp only [List.length_append, List.length_nil] at this
      omega
    unfold recordsLoop
    rw [if_neg hne, Step.bind_lift_ok (hr _)]
    have hr0 := hr []
    rw [List.append_nil] at hr0
    rw [feed, Step.bind_lift_ok hr0]
    simp only []
    rw [Step.bind_eq, Step.bind_eq]
    rcases handleRecord env r h with ⟨_ | _ | _, h'⟩
    · simp only [List.drop_left]
      exact records_feed env ws n h' (fun v hv => hg v (by simp [hv])) (by omega)
    · rfl
    · rfl

/-- One read. -/
theorem read_step (env : ServerEnv) {g : List Bytes} {rest : List Bytes} (fuel : Nat) (h : ServerHandshake) (hg : ∀ w ∈ g, Tls13.WholeRecord w) (hne : g ≠ [])
    (hl : g.flatten.length ≤ 4096) (hi : h.stream.stream.incoming = g.flatten :: rest) (hs : h.state ≠ .ready) :
    readLoop env (fuel + 1) h = (do
      feed env g
      onStream TlsStream.flush
      readLoop env fuel) { h with stream := { h.stream with stream := { h.stream.stream with incoming := rest } } } := by
  conv_lhs => unfold readLoop
  rw [Step.bind_get, if_neg hs]
  have hne' : g.flatten ≠ [] := by
    cases g with
    | nil => exact absurd rfl hne
    | cons w ws =>
      obtain ⟨hw5, _⟩ := whole_fromRaw (hg w (by simp))
      intro e
      have := congrArg List.length e
      simp only [List.flatten_cons, List.length_append, List.length_nil] at this
      omega
  have hr : (onStream fun s => s.tcpRead 4096) h = (.ok g.flatten, { h with stream := { h.stream with stream := { h.stream.stream with incoming := rest } } }) := by
    unfold onStream TlsStream.tcpRead
    simp only [hi]
    rw [List.take_of_length_le hl, List.drop_of_length_le hl, if_neg hne', if_pos rfl]
  refine (Step.bind_of_ok hr).trans ?_
  rw [Step.bind_eq, Step.bind_eq, records_feed env g _ _ hg le_rfl]

/-- The outcome of reading agrees with that of handling the records. -/
def Outcome (k k' : Res TlsError Unit × ServerHandshake) : Prop :=
  match k.1 with
  | .ok _ => if k.2.state = .ready then k'.1 = .ok () ∧ Alike k.2.stream.stream.incoming k'.2.stream.stream.incoming k.2 k'.2 ∧ k'.2.stream.buffer = []
      else k'.1 = .err .brokenPipe ∧ Alike k.2.stream.stream.incoming k'.2.stream.stream.incoming k.2 k'.2 ∧ k'.2.stream.buffer = []
  | .err e => k'.1 = .err e ∧ Alike k.2.stream.stream.incoming k'.2.stream.stream.incoming k.2 k'.2
  | .panic => k'.1 = .panic

theorem alike_self {i j : List Bytes} {h k : ServerHandshake} (hk : Alike i j h k) : Alike h.stream.stream.incoming k.stream.stream.incoming h k := by
  obtain ⟨s, rfl, hs⟩ := hk
  exact ⟨s, rfl, hs.protection, hs.output, hs.calm, hs.calm', rfl, rfl⟩

theorem ready_record (env : ServerEnv) {w : Bytes} {h : ServerHandshake} (hw : Tls13.WholeRecord w) (hs : h.state = .ready) (ha : ¬ ∃ c, Tls13.IsRecord 21#8 c w) :
    ∃ r, Record.fromRaw w = .ok (w.length, r) ∧ handleRecord env r h = (.ok (), h) := by
  obtain ⟨_, r, hr⟩ := whole_fromRaw hw
  have hr := hr []
  rw [List.append_nil] at hr
  refine ⟨r, hr, ?_⟩
  have hc := (fromRaw_isRecord hr).1
  rw [List.take_of_length_le le_rfl] at hc
  unfold handleRecord
  rw [Step.bind_get, hs]
  cases ht : r.contentType with
  | alert => rw [ht] at hc; exact absurd ⟨_, hc⟩ ha
  | changeCipherSpec => rfl
  | invalid => rfl
  | handshake => rfl
  | applicationData => rfl

theorem ready_feed (env : ServerEnv) {k : ServerHandshake} (hk : k.state = .ready) : ∀ ws : List Bytes, (∀ w ∈ ws, Tls13.WholeRecord w) →
    (∀ a w b, a ++ w :: b = ws → ∀ k', feed env a k = (.ok (), k') → k'.state = .ready → ¬ ∃ c, Tls13.IsRecord 21#8 c w) → feed env ws k = (.ok (), k)
  | [], _, _ => rfl
  | w :: ws, hw, hp => by
    obtain ⟨r, h1, h2⟩ := ready_record env (hw w (by simp)) hk (hp [] w ws rfl k rfl hk)
    have hstep : ∀ a, feed env (w :: a) k = feed env a k := by
      intro a
      rw [feed, Step.bind_lift_ok h1]
      exact Step.bind_of_ok h2
    rw [hstep]
    refine ready_feed env hk ws (fun v hv => hw v (by simp [hv])) ?_
    intro a v b hab k' hk' hst
    exact hp (w :: a) v b (by rw [List.cons_append, hab]) k' (by rw [hstep]; exact hk') hst

theorem alike_flush {i j : List Bytes} {h k : ServerHandshake} (hk : Alike i j h k) :
    ∃ k', onStream TlsStream.flush k = (.ok (), k') ∧ Alike i j h k' ∧ k'.stream.buffer = [] := by
  obtain ⟨s, rfl, hs⟩ := hk
  refine ⟨{ h with stream := { s with stream := { s.stream with written := out s }, buffer := [] } }, ?_, ⟨_, rfl, ?_⟩, rfl⟩
  · unfold onStream
    simp only [flush_run s hs.calm']
  · exact ⟨hs.protection, by simp only [out, List.append_nil]; exact hs.output, hs.calm, hs.calm', hs.pending, hs.pending'⟩

theorem reads_feed (env : ServerEnv) : ∀ (groups : List (List Bytes)) (fuel : Nat) (i : List Bytes) (h k : ServerHandshake),
    (∀ g ∈ groups, (∀ w ∈ g, Tls13.WholeRecord w) ∧ g ≠ [] ∧ g.flatten.length ≤ 4096) → groups.length < fuel →
    Alike i (groups.map List.flatten) k h → h.stream.buffer = [] →
    (∀ a w b, a ++ w :: b = groups.flatten → ∀ k', feed env a k = (.ok (), k') → k'.state = .ready → ¬ ∃ c, Tls13.IsRecord 21#8 c w) →
    Outcome (feed env groups.flatten k) (readLoop env fuel h)
  | [], fuel, i, h, k, _, hf, ha, hb, hp => by
    obtain ⟨n, rfl⟩ : ∃ n, fuel = n + 1 := ⟨fuel - 1, by omega⟩
    obtain ⟨s, rfl, hs⟩ := id ha
    show Outcome (.ok (), k) _
    unfold Outcome readLoop
    rw [Step.bind_get]
    simp only []
    by_cases hst : k.state = .ready
    · rw [if_pos hst, if_pos hst]
      exact ⟨rfl, alike_self ha, hb⟩
    · rw [if_neg hst, if_neg hst]
      have hr : (onStream fun s => s.tcpRead 4096) { k with stream := s } = (.err .brokenPipe, { k with stream := s }) := by
        unfold onStream TlsStream.tcpRead
        have := hs.pending'
        simp only [List.map_nil] at this
        simp only [this]
      rw [Step.bind_of_err hr]
      exact ⟨rfl, alike_self ha, hb⟩
  | g :: gs, fuel, i, h, k, hg, hf, ha, hb, hp => by
    obtain ⟨n, rfl⟩ : ∃ n, fuel = n + 1 := ⟨fuel - 1, by omega⟩
    obtain ⟨s, hks, hs⟩ := id ha
    subst hks
    have hg0 := hg g (by simp)
    by_cases hst : k.state = .ready
    · rw [ready_feed env hst _ (fun w hw => by
        obtain ⟨g', hg', hw'⟩ := List.mem_flatten.1 hw
        exact (hg g' hg').1 w hw') hp]
      unfold Outcome readLoop
      rw [Step.bind_get]
      simp only []
      rw [if_pos hst, if_pos hst]
      exact ⟨rfl, alike_self ha, hb⟩
    rw [read_step env (g := g) (rest := gs.map List.flatten) n { k with stream := s } hg0.1 hg0.2.1 hg0.2.2 hs.pending' hst]
    have ha' : Alike i (gs.map List.flatten) k { k with stream := { s with stream := { s.stream with incoming := gs.map List.flatten } } } :=
      ⟨_, rfl, hs.protection, hs.output, hs.calm, hs.calm', hs.pending, rfl⟩
    obtain ⟨h1, h2⟩ := feed_rel env g _ _ ha'
    rw [List.flatten_cons, feed_append, Step.bind_eq, Step.bind_eq]
    rcases hk1 : feed env g k with ⟨r, k1⟩
    rcases hk2 : feed env g { k with stream := { s with stream := { s.stream with incoming := gs.map List.flatten } } } with ⟨r', h1'⟩
    rw [hk1, hk2] at h1 h2
    simp only [] at h1 h2
    subst h1
    cases r with
    | err e =>
      exact ⟨rfl, alike_self h2⟩
    | panic => exact rfl
    | ok u =>
      simp only []
      obtain ⟨h2', e1, e2, e3⟩ := alike_flush h2
      rw [Step.bind_of_ok e1]
      refine reads_feed env gs n i h2' k1 (fun g' hg' => hg g' (by simp [hg'])) (by simpa using hf) e2 e3 ?_
      intro a w b hab k' hk'
      refine hp (g ++ a) w b (by rw [List.append_assoc, hab, List.flatten_cons]) k' ?_
      rw [feed_append, Step.bind_of_ok hk1]
      exact hk'

end ATLS.ServerProof

namespace ATLS.ClientProof
open ATLS ATLS.Model ATLS.Spec ClientHandshake FlowProof

/-- The records handled one after the other, without the reads. -/
def feed (env : ClientEnv) : List Bytes → M Unit
  | [] => pure ()
  | w :: ws => do
    let (_, r) ← .lift (Record.fromRaw w)
    handleRecord env r
    feed env ws

theorem feed_append (env : ClientEnv) : ∀ (a b : List Bytes) (h : ClientHandshake), feed env (a ++ b) h = (feed env a >>= fun _ => feed env b) h
  | [], b, h => rfl
  | w :: ws, b, h => by
    simp only [List.cons_append, feed]
    rw [Step.bind_eq, Step.bind_eq, Step.bind_eq]
    rcases Record.fromRaw w with ⟨_, r⟩ | e | _
    · simp only [Step.lift]
      rw [Step.bind_eq, Step.bind_eq]
      rcases handleRecord env r h with ⟨_ | _ | _, h'⟩
      · exact (feed_append env ws b h').trans (Step.bind_eq _ _ _)
      · rfl
      · rfl
    · rfl
    · rfl

theorem feed_rel (env : ClientEnv) {i j : List Bytes} : ∀ ws : List Bytes, Step.Rel (Alike i j) (feed env ws)
  | [] => Step.Rel.pure _
  | w :: ws => by
    unfold feed
    refine Step.Rel.bind (Step.Rel.lift _) fun a => ?_
    exact Step.Rel.bind (Rel.record _) fun _ => feed_rel env ws

theorem records_feed (env : ClientEnv) (rx : Bytes) : ∀ (g : List Bytes) (fuel offset : Nat) (h : ClientHandshake), (∀ w ∈ g, Tls13.WholeRecord w) →
    rx.drop offset = g.flatten → offset ≤ rx.length → g.flatten.length < fuel →
    recordsLoop env rx fuel offset [] h = (feed env g >>= fun _ => pure []) h
  | [], fuel, offset, h, _, hd, ho, hf => by
    obtain ⟨n, rfl⟩ : ∃ n, fuel = n + 1 := ⟨fuel - 1, by omega⟩
    have : rx.length ≤ offset := by
      have := congrArg List.length hd
      simp only [List.length_drop, List.flatten_nil, List.length_nil] at this
      omega
    unfold recordsLoop
    rw [if_neg (by simp; omega)]
    rfl
  | w :: ws, fuel, offset, h, hg, hd, ho, hf => by
    obtain ⟨hw5, r, hr⟩ := whole_fromRaw (hg w (by simp))
    have hlen := congrArg List.length hd
    simp only [List.flatten_cons, List.length_append, List.length_drop] at hf hd hlen
    obtain ⟨n, rfl⟩ : ∃ n, fuel = n + 1 := ⟨fuel - 1, by omega⟩
    have hr0 := hr []
    rw [List.append_nil] at hr0
    unfold recordsLoop
    rw [if_pos (Or.inl (by omega)), if_pos rfl]
    have hsl : (sliceFrom rx offset : Res TlsError Bytes) = .ok (rx.drop offset) := by
      unfold sliceFrom
      rw [if_pos ho]
    rw [Step.bind_lift_ok hsl, hd, hr]
    simp only []
    rw [feed, Step.bind_eq, Step.bind_eq, Step.bind_lift_ok hr0]
    simp only []
    rw [Step.bind_eq]
    rcases handleRecord env r h with ⟨_ | _ | _, h'⟩
    · simp only []
      rw [if_neg (by simp only [List.length_nil]; omega)]
      rw [records_feed env rx ws n (offset + w.length) h' (fun v hv => hg v (by simp [hv])) ?_ (by omega) (by omega), Step.bind_eq]
      rw [← List.drop_drop, hd, List.drop_left]
    · rfl
    · rfl

/-- One read. -/
theorem read_step (env : ClientEnv) {g : List Bytes} {rest : List Bytes} (fuel : Nat) (h : ClientHandshake) (hg : ∀ w ∈ g, Tls13.WholeRecord w) (hne : g ≠ [])
    (hl : g.flatten.length ≤ 2048) (hi : h.stream.stream.incoming = g.flatten :: rest) (hs : h.state ≠ .ready) :
    readLoop env (fuel + 1) [] h = (do
      feed env g
      onStream TlsStream.flush
      readLoop env fuel []) { h with stream := { h.stream with stream := { h.stream.stream with incoming := rest } } } := by
  conv_lhs => unfold readLoop
  rw [Step.bind_get, if_neg hs]
  have hne' : g.flatten ≠ [] := by
    cases g with
    | nil => exact absurd rfl hne
    | cons w ws =>
      obtain ⟨hw5, _⟩ := whole_fromRaw (hg w (by simp))
      intro e
      have := congrArg List.length e
      simp only [List.flatten_cons, List.length_append, List.length_nil] at this
      omega
  have hr : (onStream fun s => s.tcpRead 2048) h = (.ok g.flatten, { h with stream := { h.stream with stream := { h.stream.stream with incoming := rest } } }) := by
    unfold onStream TlsStream.tcpRead
    simp only [hi]
    rw [List.take_of_length_le hl, List.drop_of_length_le hl, if_neg hne', if_pos rfl]
  refine (Step.bind_of_ok hr).trans ?_
  simp only [if_true]
  rw [Step.bind_eq, records_feed env g.flatten g _ 0 _ hg (by simp) (by omega) (by simp), Step.bind_eq, Step.bind_eq]
  obtain ⟨h1, hh1⟩ : ∃ h1 : ClientHandshake, h1 = { h with stream := { h.stream with stream := { h.stream.stream with incoming := rest } } } := ⟨_, rfl⟩
  rw [← hh1]
  rcases feed env g h1 with ⟨_ | _ | _, h'⟩ <;> rfl

/-- The outcome of reading agrees with that of handling the records. -/
def Outcome (k k' : Res TlsError Unit × ClientHandshake) : Prop :=
  match k.1 with
  | .ok _ => if k.2.state = .ready then k'.1 = .ok () ∧ Alike k.2.stream.stream.incoming k'.2.stream.stream.incoming k.2 k'.2 ∧ k'.2.stream.buffer = []
      else k'.1 = .err .brokenPipe ∧ Alike k.2.stream.stream.incoming k'.2.stream.stream.incoming k.2 k'.2 ∧ k'.2.stream.buffer = []
  | .err e => k'.1 = .err e ∧ Alike k.2.stream.stream.incoming k'.2.stream.stream.incoming k.2 k'.2
  | .panic => k'.1 = .panic

theorem alike_self {i j : List Bytes} {h k : ClientHandshake} (hk : Alike i j h k) : Alike h.stream.stream.incoming k.stream.stream.incoming h k := by
  obtain ⟨s, rfl, hs⟩ := hk
  exact ⟨s, rfl, hs.protection, hs.output, hs.calm, hs.calm', rfl, rfl⟩

theorem ready_record (env : ClientEnv) {w : Bytes} {h : ClientHandshake} (hw : Tls13.WholeRecord w) (hs : h.state = .ready) (ha : ¬ ∃ c, Tls13.IsRecord 21#8 c w) :
    ∃ r, Record.fromRaw w = .ok (w.length, r) ∧ handleRecord env r h = (.ok (), h) := by
  obtain ⟨_, r, hr⟩ := whole_fromRaw hw
  have hr := hr []
  rw [List.append_nil] at hr
  refine ⟨r, hr, ?_⟩
  have hc := (fromRaw_isRecord hr).1
  rw [List.take_of_length_le le_rfl] at hc
  unfold handleRecord
  rw [Step.bind_get, hs]
  cases ht : r.contentType with
  | alert => rw [ht] at hc; exact absurd ⟨_, hc⟩ ha
  | changeCipherSpec => rfl
  | invalid => rfl
  | handshake => rfl
  | applicationData => rfl

theorem ready_feed (env : ClientEnv) {k : ClientHandshake} (hk : k.state = .ready) : ∀ ws : List Bytes, (∀ w ∈ ws, Tls13.WholeRecord w) →
    (∀ a w b, a ++ w :: b = ws → ∀ k', feed env a k = (.ok (), k') → k'.state = .ready → ¬ ∃ c, Tls13.IsRecord 21#8 c w) → feed env ws k = (.ok (), k)
  | [], _, _ => rfl
  | w :: ws, hw, hp => by
    obtain ⟨r, h1, h2⟩ := ready_record env (hw w (by simp)) hk (hp [] w ws rfl k rfl hk)
    have hstep : ∀ a, feed env (w :: a) k = feed env a k := by
      intro a
      rw [feed, Step.bind_lift_ok h1]
      exact Step.bind_of_ok h2
    rw [hstep]
    refine ready_feed env hk ws (fun v hv => hw v (by simp [hv])) ?_
    intro a v b hab k' hk' hst
    exact hp (w :: a) v b (by rw [List.cons_append, hab]) k' (by rw [hstep]; exact hk') hst

theorem alike_flush {i j : List Bytes} {h k : ClientHandshake} (hk : Alike i j h k) :
    ∃ k', onStream TlsStream.flush k = (.ok (), k') ∧ Alike i j h k' ∧ k'.stream.buffer = [] := by
  obtain ⟨s, rfl, hs⟩ := hk
  refine ⟨{ h with stream := { s with stream := { s.stream with written := out s }, buffer := [] } }, ?_, ⟨_, rfl, ?_⟩, rfl⟩
  · unfold onStream
    simp only [flush_run s hs.calm']
  · exact ⟨hs.protection, by simp only [out, List.append_nil]; exact hs.output, hs.calm, hs.calm', hs.pending, hs.pending'⟩

theorem reads_feed (env : ClientEnv) : ∀ (groups : List (List Bytes)) (fuel : Nat) (i : List Bytes) (h k : ClientHandshake),
    (∀ g ∈ groups, (∀ w ∈ g, Tls13.WholeRecord w) ∧ g ≠ [] ∧ g.flatten.length ≤ 2048) → groups.length < fuel →
    Alike i (groups.map List.flatten) k h → h.stream.buffer = [] →
    (∀ a w b, a ++ w :: b = groups.flatten → ∀ k', feed env a k = (.ok (), k') → k'.state = .ready → ¬ ∃ c, Tls13.IsRecord 21#8 c w) →
    Outcome (feed env groups.flatten k) (readLoop env fuel [] h)
  | [], fuel, i, h, k, _, hf, ha, hb, hp => by
    obtain ⟨n, rfl⟩ : ∃ n, fuel = n + 1 := ⟨fuel - 1, by omega⟩
    obtain ⟨s, rfl, hs⟩ := id ha
    show Outcome (.ok (), k) _
    unfold Outcome readLoop
    rw [Step.bind_get]
    simp only []
    by_cases hst : k.state = .ready
    · rw [if_pos hst, if_pos hst]
      exact ⟨rfl, alike_self ha, hb⟩
    · rw [if_neg hst, if_neg hst]
      have hr : (onStream fun s => s.tcpRead 2048) { k with stream := s } = (.err .brokenPipe, { k with stream := s }) := by
        unfold onStream TlsStream.tcpRead
        have := hs.pending'
        simp only [List.map_nil] at this
        simp only [this]
      rw [Step.bind_of_err hr]
      exact ⟨rfl, alike_self ha, hb⟩
  | g :: gs, fuel, i, h, k, hg, hf, ha, hb, hp => by
    obtain ⟨n, rfl⟩ : ∃ n, fuel = n + 1 := ⟨fuel - 1, by omega⟩
    obtain ⟨s, hks, hs⟩ := id ha
    subst hks
    have hg0 := hg g (by simp)
    by_cases hst : k.state = .ready
    · rw [ready_feed env hst _ (fun w hw => by
        obtain ⟨g', hg', hw'⟩ := List.mem_flatten.1 hw
        exact (hg g' hg').1 w hw') hp]
      unfold Outcome readLoop
      rw [Step.bind_get]
      simp only []
      rw [if_pos hst, if_pos hst]
      exact ⟨rfl, alike_self ha, hb⟩
    rw [read_step env (g := g) (rest := gs.map List.flatten) n { k with stream := s } hg0.1 hg0.2.1 hg0.2.2 hs.pending' hst]
    have ha' : Alike i (gs.map List.flatten) k { k with stream := { s with stream := { s.stream with incoming := gs.map List.flatten } } } :=
      ⟨_, rfl, hs.protection, hs.output, hs.calm, hs.calm', hs.pending, rfl⟩
    obtain ⟨h1, h2⟩ := feed_rel env g _ _ ha'
    rw [List.flatten_cons, feed_append, Step.bind_eq, Step.bind_eq]
    rcases hk1 : feed env g k with ⟨r, k1⟩
    rcases hk2 : feed env g { k with stream := { s with stream := { s.stream with incoming := gs.map List.flatten } } } with ⟨r', h1'⟩
    rw [hk1, hk2] at h1 h2
    simp only [] at h1 h2
    subst h1
    cases r with
    | err e =>
      exact ⟨rfl, alike_self h2⟩
    | panic => exact rfl
    | ok u =>
      simp only []
      obtain ⟨h2', e1, e2, e3⟩ := alike_flush h2
      rw [Step.bind_of_ok e1]
      refine reads_feed env gs n i h2' k1 (fun g' hg' => hg g' (by simp [hg'])) (by simpa using hf) e2 e3 ?_
      intro a w b hab k' hk'
      refine hp (g ++ a) w b (by rw [List.append_assoc, hab, List.flatten_cons]) k' ?_
      rw [feed_append, Step.bind_of_ok hk1]
      exact hk'

end ATLS.ClientProof
