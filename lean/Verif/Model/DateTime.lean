import Verif.Py.Basic
/-!
The part of Python's `datetime` module that pymap3d relies on (`datetime`, `timedelta`,
`timezone.utc`; CPython `Lib/_pydatetime.py`).  This is *library* semantics, trusted, and used by
`/repo/src/pymap3d/earth_orientation.py` 5, 45-81 and 328-332.

A `datetime` is a proleptic Gregorian calendar date, a time of day with microsecond resolution, and
either no time zone (`tzinfo is None`, a *naive* datetime) or a fixed offset from UTC (an *aware*
one).  Simplification: a `tzinfo` whose offset varies is represented by the offset it has at the
datetime in question.
-/
namespace Pymap3d
open Py

/-- `datetime(year, month, day, hour, minute, second, microsecond, tzinfo)`; `utcoffset` is the UTC
offset in microseconds, `none` for a naive datetime. -/
structure DateTime where
  year : Int
  month : Int
  day : Int
  hour : Int := 0
  minute : Int := 0
  second : Int := 0
  microsecond : Int := 0
  utcoffset : Option Int := none
deriving DecidableEq, Repr

/-- `calendar.isleap` -/
def isLeapYear (y : Int) : Bool := y % 4 == 0 && (y % 100 != 0 || y % 400 == 0)

/-- `_days_in_month` -/
def daysInMonth (y m : Int) : Int :=
  if m = 2 then (if isLeapYear y then 29 else 28)
  else if m = 4 ∨ m = 6 ∨ m = 9 ∨ m = 11 then 30 else 31

/-- The argument checks of the `datetime` constructor (`MINYEAR = 1`, `MAXYEAR = 9999`; a UTC offset
is strictly between -24 h and 24 h). -/
structure DateTime.Valid (t : DateTime) : Prop where
  year1 : 1 ≤ t.year
  year2 : t.year ≤ 9999
  month1 : 1 ≤ t.month
  month2 : t.month ≤ 12
  day1 : 1 ≤ t.day
  day2 : t.day ≤ daysInMonth t.year t.month
  hour1 : 0 ≤ t.hour
  hour2 : t.hour < 24
  minute1 : 0 ≤ t.minute
  minute2 : t.minute < 60
  second1 : 0 ≤ t.second
  second2 : t.second < 60
  micro1 : 0 ≤ t.microsecond
  micro2 : t.microsecond < 1000000
  offset : ∀ o, t.utcoffset = some o → -86400000000 < o ∧ o < 86400000000

/-- `_DAYS_BEFORE_MONTH` (January = 1), for a common year -/
def daysBeforeMonthTable (m : Int) : Int :=
  if m ≤ 1 then 0 else if m = 2 then 31 else if m = 3 then 59 else if m = 4 then 90
  else if m = 5 then 120 else if m = 6 then 151 else if m = 7 then 181 else if m = 8 then 212
  else if m = 9 then 243 else if m = 10 then 273 else if m = 11 then 304 else 334

/-- `_days_before_month` -/
def daysBeforeMonth (y m : Int) : Int :=
  daysBeforeMonthTable m + (if 2 < m ∧ isLeapYear y then 1 else 0)

/-- `_days_before_year` -/
def daysBeforeYear (y : Int) : Int :=
  (y - 1) * 365 + (y - 1) / 4 - (y - 1) / 100 + (y - 1) / 400

/-- `date.toordinal`: 0001-01-01 is day 1 -/
def toOrdinal (y m d : Int) : Int := daysBeforeYear y + daysBeforeMonth y m + d

/-- `_ord2ymd`, the month part: day `n` (from 0) of a year, leap or not, as (month, day) -/
def monthOfYearDay (leapyear : Bool) (n : Int) : Int × Int :=
  let month := (n + 50) / 32
  let preceding := daysBeforeMonthTable month + (if 2 < month ∧ leapyear then 1 else 0)
  if n < preceding then
    let month := month - 1
    let preceding := preceding - (daysInMonth 1 month + (if month = 2 ∧ leapyear then 1 else 0))
    (month, n - preceding + 1)
  else (month, n - preceding + 1)

/-- `_ord2ymd` -/
def fromOrdinal (n : Int) : Int × Int × Int :=
  let n := n - 1
  let n400 := n / 146097
  let n := n % 146097
  let n100 := n / 36524
  let n := n % 36524
  let n4 := n / 1461
  let n := n % 1461
  let n1 := n / 365
  let n := n % 365
  let year := n400 * 400 + 1 + (n100 * 100 + n4 * 4 + n1)
  if n1 = 4 ∨ n100 = 4 then (year - 1, 12, 31)
  else
    let md := monthOfYearDay (n1 == 3 && (n4 != 24 || n100 == 3)) n
    (year, md.1, md.2)

/-- time of day in microseconds -/
def DateTime.timeOfDay (t : DateTime) : Int :=
  ((t.hour * 60 + t.minute) * 60 + t.second) * 1000000 + t.microsecond

/-- `datetime + timedelta(microseconds=us)` (`datetime.__add__`): the wall-clock fields are shifted,
the time zone is kept; `OverflowError` outside years 1..9999. -/
def DateTime.addMicros (t : DateTime) (us : Int) : Except PyErr DateTime :=
  let total := t.timeOfDay + us
  let ord := toOrdinal t.year t.month t.day + total / 86400000000
  let tod := total % 86400000000
  if 0 < ord ∧ ord ≤ 3652059 then
    let ymd := fromOrdinal ord
    .ok { year := ymd.1, month := ymd.2.1, day := ymd.2.2,
          hour := tod / 3600000000, minute := tod / 60000000 % 60,
          second := tod / 1000000 % 60, microsecond := tod % 1000000, utcoffset := t.utcoffset }
  else .error (.overflowError "date value out of range")

/-- `self.astimezone(timezone.utc)` for an aware datetime: subtract the offset, attach UTC. -/
def DateTime.astimezoneUtc (t : DateTime) (off : Int) : Except PyErr DateTime :=
  match t.addMicros (-off) with
  | .ok u => .ok { u with utcoffset := some 0 }
  | .error e => .error e

/-- `a >= b` for two datetimes with the same `tzinfo`: the wall-clock fields are compared
lexicographically (`datetime._cmp`). -/
def DateTime.fieldsGe (a b : DateTime) : Bool :=
  if a.year ≠ b.year then decide (b.year < a.year)
  else if a.month ≠ b.month then decide (b.month < a.month)
  else if a.day ≠ b.day then decide (b.day < a.day)
  else if a.hour ≠ b.hour then decide (b.hour < a.hour)
  else if a.minute ≠ b.minute then decide (b.minute < a.minute)
  else if a.second ≠ b.second then decide (b.second < a.second)
  else decide (b.microsecond ≤ a.microsecond)

variable {F : Type} [Add F] [Sub F] [Mul F] [Div F] [Neg F] [Pow F Nat] [OfScientific F] [LT F] [LE F]
  [DecidableLT F] [DecidableLE F] [PyMath F]

/-- `timedelta(seconds=s)` in microseconds: whole seconds are exact, the fractional part is rounded
half-even to a microsecond (`timedelta.__new__`).  Simplification: the limit of 999999999 days on a
`timedelta` is not modelled (adding such a span overflows the year range anyway). -/
def timedeltaSeconds (s : F) : Int :=
  let whole := trunc s
  let frac := s - ofInt whole
  whole * 1000000 + roundEven (frac * 1e6)

end Pymap3d
