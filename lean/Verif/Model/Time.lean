import Verif.Model.Der
/-
Model of the certificate times of `anothertls/src/utils/x509.rs`.
-/
namespace ATLS.Model
open ATLS

/-- utils/x509.rs:37-45 `UtcTime`; the `u16` fields are natural numbers (they are built from at most two digits, so no sum overflows). -/
structure UtcTime where
  year : Nat
  month : Nat
  day : Nat
  hour : Nat
  minute : Nat
  second : Nat
  deriving DecidableEq, Repr

namespace UtcTime

/-- utils/x509.rs:48-73 `UtcTime::from_utc_timestamp` on the bytes of a string; `None` is `err ()`. -/
def fromUtcTimestamp (t : Bytes) : Res Unit UtcTime :=
  if t.length < 12 then .err ()
  else do
    let year ← strToU16 t
    let month ← strToU16 (t.drop 2)
    let day ← strToU16 (t.drop 4)
    let hour ← strToU16 (t.drop 6)
    let minute ← strToU16 (t.drop 8)
    let second ← strToU16 (t.drop 10)
    let year := if year < 50 then year + 2000 else year + 1900
    .ok ⟨year, month, day, hour, minute, second⟩

/-- utils/x509.rs:79-82: `a - b` on an unsigned type with overflow checks. -/
def sub {ε : Type} (a b : Nat) : Res ε Nat := if b ≤ a then .ok (a - b) else .panic

/-- utils/x509.rs:74-90 `get_unix_timestamp`. -/
def getUnixTimestamp {ε : Type} (t : UtcTime) : Res ε Nat := do
  let y1 ← sub t.year 1
  let a ← sub y1 1968
  let b ← sub y1 1900
  let c ← sub y1 1600
  let ab ← sub (a / 4) (b / 100)
  let leapYears := ab + c / 400
  let years ← sub t.year 1970
  let days := years * 365 + leapYears
  let m1 ← sub t.month 1
  let dm ← idx [0, 31, 59, 90, 120, 151, 181, 212, 243, 273, 304, 334] m1
  let d1 ← sub t.day 1
  let days := days + dm + d1
  .ok (days * 86400 + t.hour * 3600 + t.minute * 60 + t.second)

end UtcTime

/-- utils/x509.rs:103-106 `Validity`. -/
structure Validity where
  notBefore : Option UtcTime
  notAfter : Option UtcTime
  deriving DecidableEq, Repr

namespace Validity

/-- utils/x509.rs:108-113 `Validity::new`. -/
def new : Validity := ⟨none, none⟩

/-- utils/x509.rs:114-137 `is_valid` with the current Unix time `current` (a clock before 1970 is not modelled). -/
def isValid {ε : Type} (v : Validity) (current : Nat) : Res ε Bool := do
  let early ← match v.notBefore with
    | some t => do let b ← t.getUnixTimestamp; .ok (decide (current < b))
    | none => .ok false
  if early then .ok false
  else
    let late ← match v.notAfter with
      | some t => do let b ← t.getUnixTimestamp; .ok (decide (current > b))
      | none => .ok false
    if late then .ok false else .ok true

end Validity
end ATLS.Model
