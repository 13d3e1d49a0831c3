import Verif.Model.Holidays

/-
What `get_model_dummy` accepts: `_get_f_dummy`, anticipy/forecast_models.py 1469-1488, 1587-1620.
-/
namespace Anticipy

/-- The kinds of dummy variables, forecast_models.py 1469-1478 and 1491-1525: a function, a holiday, a calendar, or a list of numbers, of dates, or of
anything else. (A list is a list of dates if `pd.to_datetime` succeeds; an empty list counts as any of the three.) -/
inductive Dummy (K : Type) where
  | function (f : DummyFn K)
  | holiday (r : HolidayRule)
  | calendar (rules : List HolidayRule)
  | numbers (l : List K)
  | dates (l : List Timestamp)
  | other (n : Nat)

section
variable {K : Type} [Field K] [LinearOrder K]

/-- `_get_f_dummy`, forecast_models.py 1469-1488; `_get_f_dummy_from_list` on anything else, lines 1503-1504 and 1522-1525. -/
def getFDummy : Dummy K → Res (DummyFn K)
  | .function f => .ok f
  | .holiday r => .ok (fDummyHoliday r)
  | .calendar rules => .ok (fDummyCalendar rules)
  | .numbers l => fDummyNumeric l
  | .dates l => fDummyDates l
  | .other n => if n = 0 then .error .assertionError else .error .valueError

/-- `get_model_dummy`, forecast_models.py 1587-1620. -/
def getModelDummyOf (name : String) (d : Dummy K) : Res (ForecastModel K) := do
  let f ← getFDummy d
  getModelDummy name f

end
end Anticipy
