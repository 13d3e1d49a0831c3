import Verif.Spec.Additive
import Verif.Spec.DailyRun

/-
Means of the observations of a season (C109).
-/
namespace Anticipy.Spec
variable {K : Type} [Field K] [LinearOrder K]

/-- Observations of the result, with a value and positive weight, on dates of season `k`. -/
def inSeason (idx : Timestamp → Int) (k : Int) (res : RunResult K) : List (DRow K) := (observed res).filter fun a => decide (idx a.date = k)

/-- Mean of the values, weighted with the squares of the weights. -/
def meanOf (l : List (DRow K)) : K := (l.map fun a => (a.weight.getD 0) ^ 2 * a.y.getD 0).sum / (l.map fun a => (a.weight.getD 0) ^ 2).sum

/-- Day of the week of a timestamp, given the weekdays of the days. -/
def weekdayIn (wd : Int → Int) (t : Timestamp) : Int := wd (t / (24 * 60 * 60 * 1000000000))

/-- Month of the year of a timestamp, given the calendar. -/
def monthIn (civil : Int → Int × Int × Int) (t : Timestamp) : Int := (civil (t / (24 * 60 * 60 * 1000000000))).2.1

end Anticipy.Spec
