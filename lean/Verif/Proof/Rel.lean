import Verif.Proof.Flow
/-
Methods that treat related states alike.
-/
namespace ATLS.Model
open ATLS

/-- On related states the method has the same outcome and leaves related states behind. -/
def Step.Rel {σ ε α : Type} (R : σ → σ → Prop) (f : Step σ ε α) : Prop := ∀ s t, R s t → (f s).1 = (f t).1 ∧ R (f s).2 (f t).2

namespace Step.Rel
variable {σ ε α β : Type} {R : σ → σ → Prop}

theorem pure (a : α) : Step.Rel R (Pure.pure a : Step σ ε α) := fun _ _ h => ⟨rfl, h⟩
theorem lift (r : Res ε α) : Step.Rel R (Step.lift r : Step σ ε α) := fun _ _ h => ⟨rfl, h⟩
theorem throw (e : ε) : Step.Rel R (Step.throw e : Step σ ε α) := fun _ _ h => ⟨rfl, h⟩
theorem crash : Step.Rel R (Step.crash : Step σ ε α) := fun _ _ h => ⟨rfl, h⟩
theorem modify {g : σ → σ} (h : ∀ s t, R s t → R (g s) (g t)) : Step.Rel R (Step.modify g : Step σ ε Unit) := fun s t hr => ⟨rfl, h s t hr⟩

theorem bind {x : Step σ ε α} {f : α → Step σ ε β} (hx : Step.Rel R x) (hf : ∀ a, Step.Rel R (f a)) : Step.Rel R (x >>= f) := by
  intro s t h
  obtain ⟨h1, h2⟩ := hx s t h
  rw [Step.bind_eq, Step.bind_eq]
  rcases hxs : x s with ⟨r, s'⟩
  rcases hxt : x t with ⟨r', t'⟩
  rw [hxs, hxt] at h1 h2
  simp only [] at h1 h2
  subst h1
  cases r with
  | ok a => exact hf a s' t' h2
  | err e => exact ⟨rfl, h2⟩
  | panic => exact ⟨rfl, h2⟩

/-- Reading the state, when what follows depends only on what related states share. -/
theorem bind_get {f : σ → Step σ ε β} (hg : ∀ s t, R s t → f s = f t) (hf : ∀ a, Step.Rel R (f a)) : Step.Rel R ((Step.get : Step σ ε σ) >>= f) := by
  intro s t h
  rw [Step.bind_get, Step.bind_get, ← hg s t h]
  exact hf s s t h

end Step.Rel

/-- Walks through the body of a method; what remains are the calls, assignments and reads of the state. -/
macro "rel" : tactic => `(tactic| repeat' (first
  | exact Step.Rel.pure _ | exact Step.Rel.lift _ | exact Step.Rel.throw _ | exact Step.Rel.crash
  | assumption | with_reducible refine Step.Rel.bind_get ?_ (fun _ => ?_)
  | with_reducible refine Step.Rel.bind ?_ (fun _ => ?_) | split | dsimp only))

end ATLS.Model

namespace ATLS.FlowProof
open ATLS ATLS.Model ATLS.Spec

variable {i j : List Bytes}

/-- Two streams that differ only in what is still to be read, `i` and `j`, and in how much of the output is still buffered; no write fails. -/
structure Alike (i j : List Bytes) (s t : TlsStream) : Prop where
  protection : t.protection = s.protection
  output : out t = out s
  calm : s.stream.failures = []
  calm' : t.stream.failures = []
  pending : s.stream.incoming = i
  pending' : t.stream.incoming = j

theorem flush_run (s : TlsStream) (h : s.stream.failures = []) :
    s.flush = (.ok (), { s with stream := { s.stream with written := out s }, buffer := [] }) := by
  unfold TlsStream.flush Socket.writeAll
  by_cases hb : s.buffer = []
  · rw [if_pos hb]
    simp only [out, hb, List.append_nil]
  · rw [if_neg hb]
    rcases s with ⟨⟨i, f, w⟩, p, b⟩
    simp only at h
    subst h
    rfl

theorem Alike.flush {s t : TlsStream} (h : Alike i j s t) : (s.flush).1 = (t.flush).1 ∧ Alike i j s.flush.2 t.flush.2 := by
  rw [flush_run s h.calm, flush_run t h.calm']
  exact ⟨rfl, h.protection, by simp [out]; exact h.output, h.calm, h.calm', h.pending, h.pending'⟩

theorem Alike.setProtection {s t : TlsStream} (h : Alike i j s t) (p : Option RecordPayloadProtection) : Alike i j (s.setProtection p) (t.setProtection p) :=
  ⟨rfl, h.output, h.calm, h.calm', h.pending, h.pending'⟩

theorem Alike.write {s t : TlsStream} (h : Alike i j s t) (ty : RecordType) (data : Bytes) :
    (s.writeRecord ty data).1 = (t.writeRecord ty data).1 ∧ Alike i j (s.writeRecord ty data).2 (t.writeRecord ty data).2 := by
  have key : ∀ (s t : TlsStream) (b : Bytes), Alike i j s t →
      let f := fun s : TlsStream => (if ({ s with buffer := s.buffer ++ b } : TlsStream).buffer.length ≥ 2048 then ({ s with buffer := s.buffer ++ b } : TlsStream).flush
        else (.ok (), { s with buffer := s.buffer ++ b }))
      (f s).1 = (f t).1 ∧ Alike i j (f s).2 (f t).2 := by
    intro s t b h f
    have hg : ∀ s : TlsStream, s.stream.failures = [] → (f s).1 = .ok () ∧ (f s).2.protection = s.protection ∧ out (f s).2 = out s ++ b ∧ (f s).2.stream.failures = [] ∧
        (f s).2.stream.incoming = s.stream.incoming := by
      intro s hs
      simp only [f]
      split_ifs
      · rw [flush_run { s with buffer := s.buffer ++ b } hs]
        exact ⟨rfl, rfl, by simp [out], hs, rfl⟩
      · exact ⟨rfl, rfl, by simp [out], hs, rfl⟩
    obtain ⟨a1, a2, a3, a4, a5⟩ := hg s h.calm
    obtain ⟨b1, b2, b3, b4, b5⟩ := hg t h.calm'
    exact ⟨by rw [a1, b1], ⟨by rw [a2, b2, h.protection], by rw [a3, b3, h.output], a4, b4, a5.trans h.pending, b5.trans h.pending'⟩⟩
  unfold TlsStream.writeRecord TlsStream.protectRecord
  rw [h.protection]
  cases hp : s.protection with
  | none => exact key s t _ h
  | some p =>
    simp only []
    rcases he : p.encrypt (Record.new ty data) with ⟨r, p'⟩
    cases r with
    | ok b => exact key _ _ b ⟨rfl, h.output, h.calm, h.calm', h.pending, h.pending'⟩
    | err e => exact ⟨rfl, rfl, h.output, h.calm, h.calm', h.pending, h.pending'⟩
    | panic => exact ⟨rfl, rfl, h.output, h.calm, h.calm', h.pending, h.pending'⟩

theorem Alike.alert {s t : TlsStream} (h : Alike i j s t) (e : TlsError) : (s.writeAlert e).1 = (t.writeAlert e).1 := by
  have key : ∀ (s : TlsStream) (b : Bytes), s.stream.failures = [] → ∃ sock, s.stream.writeAll b = (true, sock) := by
    intro s b hs
    unfold Socket.writeAll
    split_ifs
    · exact ⟨_, rfl⟩
    · rw [hs]; exact ⟨_, rfl⟩
  unfold TlsStream.writeAlert TlsStream.protectRecord
  rw [h.protection]
  cases hp : s.protection with
  | none =>
    simp only []
    obtain ⟨_, e1⟩ := key s (Record.new .alert [(AlertLevel.getFromError e).code, e.asU8]).asBytes h.calm
    obtain ⟨_, e2⟩ := key t (Record.new .alert [(AlertLevel.getFromError e).code, e.asU8]).asBytes h.calm'
    rw [e1, e2]
  | some p =>
    simp only []
    rcases he : p.encrypt (Record.new .alert [(AlertLevel.getFromError e).code, e.asU8]) with ⟨r, p'⟩
    cases r with
    | ok b =>
      simp only []
      obtain ⟨_, e1⟩ := key s b h.calm
      obtain ⟨_, e2⟩ := key t b h.calm'
      rw [e1, e2]
    | err e => rfl
    | panic => rfl

end ATLS.FlowProof
