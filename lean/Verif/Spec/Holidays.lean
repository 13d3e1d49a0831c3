import Verif.Spec.Calendar

/-
Independent specification of movable holidays, for any functions `civil` and `wd` that are the Gregorian calendar and the
week (Spec/Calendar).
-/
namespace Anticipy.Spec

/-- Day number `n` lies in month `m` of year `y`. -/
def InMonth (civil : Int → Int × Int × Int) (y m n : Int) : Prop := ∃ d, civil n = (y, m, d)

/-- `n` is the first day with weekday `w` (Monday = 0) of the month. -/
def FirstOf (civil : Int → Int × Int × Int) (wd : Int → Int) (w y m n : Int) : Prop :=
  wd n = w ∧ InMonth civil y m n ∧ ∀ k, InMonth civil y m k → wd k = w → n ≤ k

/-- `n` is the last day with weekday `w` of the month. -/
def LastOf (civil : Int → Int × Int × Int) (wd : Int → Int) (w y m n : Int) : Prop :=
  wd n = w ∧ InMonth civil y m n ∧ ∀ k, InMonth civil y m k → wd k = w → k ≤ n

/-- Date in March (possibly beyond the 31st) of the ecclesiastical full moon of year `y`: Clavius' rules as in Knuth, The Art of Computer
Programming 1.3.2, exercise 14 (golden number, century, corrections, epact, full moon). -/
def paschalMoon (y : Int) : Int :=
  let golden := y % 19 + 1
  let century := y / 100 + 1
  let x := 3 * century / 4 - 12
  let z := (8 * century + 5) / 25 - 5
  let e := (11 * golden + 20 + z - x) % 30
  let epact := if (e = 25 ∧ golden > 11) ∨ e = 24 then e + 1 else e
  let n := 44 - epact
  if n < 21 then n + 30 else n

/-- Easter: the first Sunday after the ecclesiastical full moon. -/
def IsEaster (civil : Int → Int × Int × Int) (wd : Int → Int) (y n : Int) : Prop :=
  ∃ march1, civil march1 = (y, 3, 1) ∧ wd n = 6 ∧ march1 + (paschalMoon y - 1) < n ∧ n ≤ march1 + (paschalMoon y - 1) + 7

/-- Weekday that is not Saturday or Sunday. -/
def WorkDay (wd : Int → Int) (n : Int) : Prop := wd n ≤ 4

end Anticipy.Spec
