/-
Independent specification of the Gregorian calendar: the day after a civil date.
-/
namespace Anticipy.Spec

/-- A year is a leap year iff divisible by 4, except centuries not divisible by 400. -/
def leap (y : Int) : Prop := (y % 4 = 0 ∧ y % 100 ≠ 0) ∨ y % 400 = 0

instance (y : Int) : Decidable (leap y) := by unfold leap; infer_instance

/-- Length of a month. -/
def monthLength (y m : Int) : Int :=
  if m = 2 then (if leap y then 29 else 28)
  else if m ∈ [4, 6, 9, 11] then 30 else 31

/-- The day after `y-m-d`. -/
def nextDay : Int × Int × Int → Int × Int × Int
  | (y, m, d) =>
    if d < monthLength y m then (y, m, d + 1)
    else if m < 12 then (y, m + 1, 1) else (y + 1, 1, 1)

/-- A civil date that exists. -/
def ValidDate : Int × Int × Int → Prop
  | (y, m, d) => 1 ≤ m ∧ m ≤ 12 ∧ 1 ≤ d ∧ d ≤ monthLength y m

/-- A function from day numbers to civil dates is *the* Gregorian calendar iff day 0 is
1970-01-01, each next day number is the next civil day, and only existing dates occur. -/
def IsCalendar (civil : Int → Int × Int × Int) : Prop :=
  civil 0 = (1970, 1, 1) ∧ (∀ n, civil (n + 1) = nextDay (civil n)) ∧ ∀ n, ValidDate (civil n)

/-- A function from day numbers to weekdays (Monday = 0 … Sunday = 6): day 0 is a Thursday and weekdays cycle. -/
def IsWeek (wd : Int → Int) : Prop :=
  wd 0 = 3 ∧ (∀ n, wd (n + 1) = if wd n = 6 then 0 else wd n + 1) ∧ ∀ n, 0 ≤ wd n ∧ wd n ≤ 6

/-- Nanoseconds per day and hour. -/
def dayNs : Int := 24 * 60 * 60 * 1000000000
def hourNs : Int := 60 * 60 * 1000000000

/-- `t` falls on day number `d`. -/
def FallsOn (t d : Int) : Prop := d * dayNs ≤ t ∧ t < (d + 1) * dayNs

end Anticipy.Spec
