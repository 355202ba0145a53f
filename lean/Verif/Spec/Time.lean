import Verif.Spec.Common
/-
The proleptic Gregorian calendar, Unix time (POSIX "seconds since the epoch") and RFC 5280 UTCTime.
-/
namespace ATLS.Spec.Time

/-- Leap years of the Gregorian calendar. -/
def isLeap (y : Nat) : Bool := y % 4 == 0 && (y % 100 != 0 || y % 400 == 0)

/-- Days of a year. -/
def yearDays (y : Nat) : Nat := if isLeap y then 366 else 365

/-- Days of the months January (1) to December (12). -/
def monthDays (y : Nat) : Nat → Nat
  | 2 => if isLeap y then 29 else 28
  | 4 | 6 | 9 | 11 => 30
  | _ => 31

/-- Days from 1 January 1970 to 1 January `1970 + n`. -/
def daysToYear : Nat → Nat
  | 0 => 0
  | n + 1 => daysToYear n + yearDays (1970 + n)

/-- Days from 1 January to the first day of month `m`. -/
def daysToMonth (y : Nat) : Nat → Nat
  | 0 | 1 => 0
  | m + 2 => daysToMonth y (m + 1) + monthDays y (m + 1)

/-- A date and time of day that exists (no leap seconds). -/
def InCalendar (year month day hour minute second : Nat) : Prop :=
  (1 ≤ month ∧ month ≤ 12) ∧ (1 ≤ day ∧ day ≤ monthDays year month) ∧ hour < 24 ∧ minute < 60 ∧ second < 60

/-- A date and time of day that exists, from 1970 on. -/
def Valid (year month day hour minute second : Nat) : Prop := 1970 ≤ year ∧ InCalendar year month day hour minute second

instance (year month day hour minute second : Nat) : Decidable (Valid year month day hour minute second) := by
  unfold Valid InCalendar; infer_instance

/-- Unix time of a date and time of day (UTC). -/
def unix (year month day hour minute second : Nat) : Nat :=
  (daysToYear (year - 1970) + daysToMonth year month + (day - 1)) * 86400 + hour * 3600 + minute * 60 + second

/-- Two decimal digits. -/
def two (n : Nat) : Bytes := [BitVec.ofNat 8 (0x30 + n / 10), BitVec.ofNat 8 (0x30 + n % 10)]

/-- RFC 5280 4.1.2.5.1: UTCTime `YYMMDDHHMMSSZ`; years 1950 to 2049. -/
def utcTime (year month day hour minute second : Nat) : Bytes :=
  two (year % 100) ++ two month ++ two day ++ two hour ++ two minute ++ two second ++ [0x5a#8]

end ATLS.Spec.Time
