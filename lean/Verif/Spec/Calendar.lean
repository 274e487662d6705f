/-! # The Gregorian calendar as a running clock

A specification of dates without arithmetic on days: a clock that starts at 0000-01-01 00:00:00 (proleptic Gregorian
calendar) and moves on by one second at a time.  It has no leap seconds. -/

namespace Grib.Spec

/-- What a calendar clock shows. -/
structure Clock where
  year : Nat
  month : Nat
  day : Nat
  hour : Nat
  minute : Nat
  second : Nat
deriving DecidableEq, Repr

/-- Every fourth year is a leap year, except the centuries, except every fourth century. -/
def leapYear (y : Nat) : Bool := y % 4 == 0 && (y % 100 != 0 || y % 400 == 0)

/-- The number of days of a month. -/
def monthDays (y m : Nat) : Nat :=
  if m == 2 then (if leapYear y then 29 else 28)
  else if m == 4 || m == 6 || m == 9 || m == 11 then 30 else 31

/-- One day later, same time of day. -/
def Clock.nextDay (c : Clock) : Clock :=
  if c.day < monthDays c.year c.month then { c with day := c.day + 1 }
  else if c.month < 12 then { c with month := c.month + 1, day := 1 }
  else { c with year := c.year + 1, month := 1, day := 1 }

/-- One second later. -/
def Clock.tick (c : Clock) : Clock :=
  if c.second < 59 then { c with second := c.second + 1 }
  else if c.minute < 59 then { c with minute := c.minute + 1, second := 0 }
  else if c.hour < 23 then { c with hour := c.hour + 1, minute := 0, second := 0 }
  else { c.nextDay with hour := 0, minute := 0, second := 0 }

/-- The first moment. -/
def Clock.start : Clock := ⟨0, 1, 1, 0, 0, 0⟩

/-- What the clock shows `n` seconds after the first moment. -/
def Clock.after : Nat → Clock
  | 0 => Clock.start
  | n + 1 => (Clock.after n).tick

end Grib.Spec
