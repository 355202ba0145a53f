import Verif.Basic
/-
Calls of an object that can be read from and written to, one after the other.
-/
namespace ATLS.Spec
open ATLS

/-- A call: read into a buffer of this size, or write these bytes. -/
inductive IoCall where
  | read (size : Nat)
  | write (data : Bytes)

/-- What a call returns. -/
inductive IoResult (ρ ω : Type) where
  | read (r : ρ)
  | write (r : ω)
  deriving DecidableEq

/-- The sizes of the reads, and the data of the writes, in order. -/
def IoCall.reads (l : List IoCall) : List Nat := l.filterMap fun | .read n => some n | .write _ => none
def IoCall.writes (l : List IoCall) : List Bytes := l.filterMap fun | .read _ => none | .write b => some b

/-- The results of the reads and of the writes, in order. -/
def IoResult.reads {ρ ω : Type} (l : List (IoResult ρ ω)) : List ρ := l.filterMap fun | .read r => some r | .write _ => none
def IoResult.writes {ρ ω : Type} (l : List (IoResult ρ ω)) : List ω := l.filterMap fun | .read _ => none | .write r => some r

/-- The calls, one after the other, on an object with the state `s`: the results, and the state afterwards. -/
def ioRun {σ ρ ω : Type} (read : σ → Nat → ρ × σ) (write : σ → Bytes → ω × σ) : σ → List IoCall → List (IoResult ρ ω) × σ
  | s, [] => ([], s)
  | s, .read n :: l => let (r, s1) := read s n; let (rs, s2) := ioRun read write s1 l; (.read r :: rs, s2)
  | s, .write b :: l => let (r, s1) := write s b; let (rs, s2) := ioRun read write s1 l; (.write r :: rs, s2)

end ATLS.Spec
