import Mathlib.Data.Int.Order.Basic

/-
Timestamps, weekdays and the proleptic Gregorian calendar as used through
`pd.Timestamp` / `pd.DatetimeIndex` attributes (`.weekday`, `.day`, `.month`, `.days`).
External to the repository; its correctness is proved against `Spec/Calendar`.
-/
namespace Anticipy

/-- Timestamp: nanoseconds since 1970-01-01T00:00 (an integer; a macro rather than a definition so that `omega` sees it). -/
scoped macro "Timestamp" : term => `(Int)

/-- `pd.Timedelta(1, unit='h')` in nanoseconds. (model_utils.py 310-334) -/
def HOUR : Int := 3600000000000
/-- `pd.Timedelta(1, unit='d')` in nanoseconds. (model_utils.py 310-334) -/
def DAY : Int := 86400000000000

/-- Day number (days since 1970-01-01) of a timestamp. (model_utils.py 118-124) -/
def dayOf (t : Timestamp) : Int := t / DAY
/-- Time of day in nanoseconds. (model_utils.py 118-124) -/
def todOf (t : Timestamp) : Int := t % DAY

/-- Weekday of a day number, Monday = 0 (1970-01-01 is a Thursday). (model_utils.py 122, 314, forecast_models.py 163-164) -/
def weekdayOfDay (d : Int) : Int := (d + 3) % 7
/-- `Timestamp.weekday()`. (model_utils.py 122, 314, forecast_models.py 163-164) -/
def weekday (t : Timestamp) : Int := weekdayOfDay (dayOf t)

/-- Gregorian leap year rule. (model_utils.py 320, 331, forecast_models.py 159-160) -/
def isLeap (y : Int) : Bool := y % 4 = 0 && (y % 100 ≠ 0 || y % 400 = 0)

/-- Day number of January 1st of year `y`. (model_utils.py 320, 331, forecast_models.py 159-160) -/
def yearStart (y : Int) : Int := 365 * y + (y + 3) / 4 - (y + 99) / 100 + (y + 399) / 400 - 719528

/-- 1 in leap years, 0 otherwise. (model_utils.py 320, 331, forecast_models.py 159-160) -/
def leapDay (leap : Bool) : Int := if leap then 1 else 0

/-- Days before month `m` (1..13) of a year; from March on the month lengths follow the
pattern 31,30,31,30,31. (model_utils.py 320, 331, forecast_models.py 159-160) -/
def monthOffset (leap : Bool) (m : Int) : Int :=
  if m ≤ 2 then 31 * (m - 1) else 59 + leapDay leap + (153 * (m - 3) + 2) / 5

/-- Number of days of month `m` in year `y`. (model_utils.py 320, 331, forecast_models.py 159-160) -/
def daysInMonth (y m : Int) : Int :=
  if m = 2 then (if isLeap y then 29 else 28)
  else if m = 4 ∨ m = 6 ∨ m = 9 ∨ m = 11 then 30 else 31

/-- Day number of a civil date. (model_utils.py 320, 331, forecast_models.py 159-160) -/
def ofCivil (y m d : Int) : Int := yearStart y + monthOffset (isLeap y) m + (d - 1)

/-- Year of a day number: closed-form estimate with correction by one. (model_utils.py 320, 331, forecast_models.py 159-160) -/
def yearOfDay (n : Int) : Int :=
  let e := (400 * (n + 719528)) / 146097
  if n < yearStart e then e - 1 else if yearStart (e + 1) ≤ n then e + 1 else e

/-- Month (1..12) from the zero-based day of the year. (model_utils.py 320, 331, forecast_models.py 159-160) -/
def monthOfYday (leap : Bool) (k : Int) : Int :=
  if k < 31 then 1 else if k < 59 + leapDay leap then 2
  else (5 * (k - 59 - leapDay leap) + 2) / 153 + 3

/-- Month of a day number. (model_utils.py 320, 331, forecast_models.py 159-160) -/
def monthOfDay (n : Int) : Int :=
  monthOfYday (isLeap (yearOfDay n)) (n - yearStart (yearOfDay n))

/-- Day of the month (1..31) of a day number. (model_utils.py 320, 331, forecast_models.py 159-160) -/
def domOfDay (n : Int) : Int :=
  n - yearStart (yearOfDay n) - monthOffset (isLeap (yearOfDay n)) (monthOfDay n) + 1

/-- `.year`, `.month`, `.day` of a timestamp. (model_utils.py 320, 331, forecast_models.py 159-160) -/
def year (t : Timestamp) : Int := yearOfDay (dayOf t)
/-- See model_utils.py 320, 331, forecast_models.py 159-160. -/
def month (t : Timestamp) : Int := monthOfDay (dayOf t)
/-- See model_utils.py 320, 331, forecast_models.py 159-160. -/
def dom (t : Timestamp) : Int := domOfDay (dayOf t)

/-- Absolute month index `12*year + (month-1)`. (model_utils.py 195-199) -/
def monthIdxOfDay (n : Int) : Int := 12 * yearOfDay n + (monthOfDay n - 1)

/-- Day number of the first day of the month with index `k`. (model_utils.py 195-199) -/
def monthStart (k : Int) : Int := ofCivil (k / 12) (k % 12 + 1) 1
/-- Day number of the last day of the month with index `k`. (model_utils.py 195-199) -/
def monthEnd (k : Int) : Int := monthStart (k + 1) - 1

end Anticipy
