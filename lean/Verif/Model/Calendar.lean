import Verif.Model.Headers
import Verif.Model.Error

/-! # Model of `Identification::ref_time` and of the part of `chrono` it uses

`chrono` is not in the repository: its `Utc.with_ymd_and_hms` is modelled after its documentation (a value exists iff the six
fields are a valid date and time of the proleptic Gregorian calendar; a second 60 is not accepted; the value is an instant, counted
in seconds).  Years are at most 65535 here, far inside `chrono`'s range. -/

namespace Grib.Model

/-- `chrono`: leap years. -/
def isLeapYear (y : Nat) : Bool := (y % 4 == 0 && y % 100 != 0) || y % 400 == 0

/-- `chrono`: days before a month of a (common or leap) year, month from 1. -/
def daysBeforeMonth (leap : Bool) (m : Nat) : Nat :=
  [0, 0, 31, 59, 90, 120, 151, 181, 212, 243, 273, 304, 334, 365].getD m 0 + (if leap && decide (3 ≤ m) then 1 else 0)

/-- `chrono`: days from 0000-01-01 to the first day of year `y`. -/
def daysBeforeYear (y : Nat) : Nat :=
  if y = 0 then 0 else 365 * y + ((y - 1) / 4 + 1) - ((y - 1) / 100 + 1) + ((y - 1) / 400 + 1)

/-- `NaiveDate::from_ymd_opt`: the number of days since 0000-01-01 (used by src/datatypes/sections.rs:122-137). -/
def dayNumber (year month day : Nat) : Option Nat :=
  if 1 ≤ month ∧ month ≤ 12 ∧ 1 ≤ day ∧
      daysBeforeMonth (isLeapYear year) month + day ≤ daysBeforeMonth (isLeapYear year) (month + 1) then
    some (daysBeforeYear year + daysBeforeMonth (isLeapYear year) month + (day - 1))
  else none

/-- `NaiveDate::and_hms_opt`: seconds of the day (used by src/datatypes/sections.rs:122-137). -/
def secondOfDay (hour minute second : Nat) : Option Nat :=
  if hour < 24 ∧ minute < 60 ∧ second < 60 then some (hour * 3600 + minute * 60 + second) else none

/-- `DateTime<Utc>`: an instant, as `timestamp()` (seconds since 1970-01-01 00:00:00 UTC). -/
structure DateTime where
  timestamp : Int
deriving DecidableEq, Repr

/-- `Utc.with_ymd_and_hms(..).single()` (used by src/datatypes/sections.rs:130). -/
def withYmdAndHms (year month day hour minute second : Nat) : Option DateTime :=
  match dayNumber year month day, secondOfDay hour minute second with
  | some d, some s => some ⟨(d : Int) * 86400 + s - 719528 * 86400⟩
  | _, _ => none

/-- `create_date_time` (src/datatypes/sections.rs:122-137); the text of the message is omitted. -/
def createDateTime (year month day hour minute second : Nat) : Outcome GribError DateTime :=
  match withYmdAndHms year month day hour minute second with
  | none => .err .invalidValueError
  | some t => .ok t

/-- `Identification::ref_time` (src/datatypes/sections.rs:94-105). -/
def Identification.refTime (s : Identification) : Outcome GribError DateTime := do
  let year ← rdAs s.payload 7 2
  let month ← rdIdx s.payload 9
  let day ← rdIdx s.payload 10
  let hour ← rdIdx s.payload 11
  let minute ← rdIdx s.payload 12
  let second ← rdIdx s.payload 13
  createDateTime year month day hour minute second

end Grib.Model
