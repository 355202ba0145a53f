import Verif.Model.Server
import Verif.Model.Client
/-
When two handshakes have the same result.
-/
namespace ATLS
open ATLS.Model

/-- Two results of a handshake are the same: the same error, or streams that have written the same bytes and hold the same keys and counters. -/
def SameResult (a b : Res TlsError TlsStream) : Prop :=
  match a, b with
  | .ok s, .ok t => t.stream.written = s.stream.written ∧ t.protection = s.protection ∧ t.buffer = s.buffer
  | .err e, .err f => f = e
  | .panic, .panic => True
  | _, _ => False

end ATLS
