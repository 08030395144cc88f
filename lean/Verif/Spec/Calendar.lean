import Verif.Model.DateTime
import Mathlib.Algebra.BigOperators.Group.Finset.Basic
import Mathlib.Data.Real.Basic
/-!
# Specification: the Gregorian calendar and the time line

Written without reference to the formulas used by the code (or by Python's `datetime`): days are
counted by adding up the lengths of the years and months that have passed.
-/
namespace Spec
open Pymap3d

/-- every fourth year is a leap year, except centuries not divisible by 400 -/
def leap (y : ℤ) : Prop := 4 ∣ y ∧ (¬ 100 ∣ y ∨ 400 ∣ y)

instance (y : ℤ) : Decidable (leap y) := by unfold leap; infer_instance

/-- number of days of a year -/
def yearDays (y : ℤ) : ℤ := if leap y then 366 else 365

/-- number of days of month `m` (1 = January) of year `y` -/
def monthDays (y m : ℤ) : ℤ :=
  if m = 2 then (if leap y then 29 else 28)
  else if m = 4 ∨ m = 6 ∨ m = 9 ∨ m = 11 then 30 else 31

/-- number of days from the beginning of 0001-01-01 to the beginning of the given date -/
def daysBefore (y m d : ℤ) : ℤ :=
  (∑ k ∈ Finset.range (y - 1).toNat, yearDays (k + 1)) +
    (∑ j ∈ Finset.range (m - 1).toNat, monthDays y (j + 1)) + (d - 1)

/-- The instant a datetime denotes: microseconds elapsed since the beginning of 0001-01-01 UTC.
A naive datetime denotes UTC. -/
def instant (t : DateTime) : ℤ :=
  daysBefore t.year t.month t.day * 86400000000 + t.hour * 3600000000 + t.minute * 60000000
    + t.second * 1000000 + t.microsecond - t.utcoffset.getD 0

/-- The instants a `datetime` in UTC can denote: years 1 to 9999. -/
def Representable (i : ℤ) : Prop := 0 ≤ i ∧ i < 3652059 * 86400000000

end Spec

namespace Spec
/-- The dates (UTC midnight) at which a leap second has just been inserted, 1972-07-01 to 2017-01-01
(IERS Bulletin C history). -/
def leapDates : List (ℤ × ℤ × ℤ) :=
  [(1972, 7, 1), (1973, 1, 1), (1974, 1, 1), (1975, 1, 1), (1976, 1, 1), (1977, 1, 1), (1978, 1, 1),
   (1979, 1, 1), (1980, 1, 1), (1981, 7, 1), (1982, 7, 1), (1983, 7, 1), (1985, 7, 1), (1988, 1, 1),
   (1990, 1, 1), (1991, 1, 1), (1992, 7, 1), (1993, 7, 1), (1994, 7, 1), (1996, 1, 1), (1997, 7, 1),
   (1999, 1, 1), (2006, 1, 1), (2009, 1, 1), (2012, 7, 1), (2015, 7, 1), (2017, 1, 1)]

/-- midnight UTC beginning the given date -/
def midnight (d : ℤ × ℤ × ℤ) : ℤ := daysBefore d.1 d.2.1 d.2.2 * 86400000000

/-- TAI - UTC in seconds at an instant: 10 s, plus one for every leap second inserted so far. -/
def taiMinusUtc (i : ℤ) : ℤ := 10 + ((leapDates.filter (fun d => midnight d ≤ i)).length : ℤ)

end Spec

namespace Spec
open Pymap3d
/-- consecutive calendar days (next day of the month, first of the next month, or New Year) -/
def NextDay (s t : DateTime) : Prop :=
  (t.year = s.year ∧ t.month = s.month ∧ t.day = s.day + 1) ∨
  (t.year = s.year ∧ t.month = s.month + 1 ∧ s.day = monthDays s.year s.month ∧ t.day = 1) ∨
  (t.year = s.year + 1 ∧ s.month = 12 ∧ s.day = 31 ∧ t.month = 1 ∧ t.day = 1)

end Spec
