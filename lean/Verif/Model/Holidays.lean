import Verif.Model.Zoo

/-
Holiday calendars and the models built from them: anticipy/forecast_models.py 1528-1556 (masks from
calendars and holidays), 1638-1686 (UK and Italian calendars), 1689-1761 (`get_model_from_calendars`) and
1764-1812 (`get_model_from_datelist`).

The classes `Holiday` and `AbstractHolidayCalendar` come from pandas (tseries/holiday.py), Easter from dateutil.
A holiday has a month and a day and an adjustment of the resulting day (`observance`, or `offset`s added to it);
adjustments are functions on day numbers. Not modelled: `days_of_week`, a fixed `year`, February 29 as a holiday.
-/
namespace Anticipy

/-- pandas `Holiday`: reference month and day, adjustment of the reference day, optional first and last date. (forecast_models.py 1528-1556, 1638-1686) -/
structure HolidayRule where
  month : Int
  day : Int
  adjust : Int → Int := id
  startDate : Option Timestamp := none
  endDate : Option Timestamp := none

/-- Day number of the holiday derived from the reference date in year `y` (`Holiday._apply_rule`). (forecast_models.py 1528-1556, 1638-1686) -/
def HolidayRule.dayIn (r : HolidayRule) (y : Int) : Int := r.adjust (ofCivil y r.month r.day)

/-- `max(rule.start_date, start)`. (forecast_models.py 1528-1556, 1638-1686) -/
def HolidayRule.from_ (r : HolidayRule) (start : Timestamp) : Timestamp := match r.startDate with
  | none => start
  | some s => max s start

/-- `min(rule.end_date, end)`. (forecast_models.py 1528-1556, 1638-1686) -/
def HolidayRule.until_ (r : HolidayRule) (stop : Timestamp) : Timestamp := match r.endDate with
  | none => stop
  | some s => min s stop

/-- `Holiday._reference_dates`: the years of the reference dates, from the year before the start to the year after the end
(a rule's own start and end dates replace those of the window). (forecast_models.py 1528-1556, 1638-1686) -/
def HolidayRule.refYears (r : HolidayRule) (start stop : Timestamp) : List Int :=
  let y0 := year (r.startDate.getD start) - 1
  let y1 := year (r.endDate.getD stop) + 1
  (List.range (y1 + 1 - y0).toNat).map fun i : Nat => y0 + (i : Int)

/-- `Holiday.dates(start, end)`. (forecast_models.py 1528-1556, 1638-1686) -/
def HolidayRule.dates (r : HolidayRule) (start stop : Timestamp) : List Timestamp :=
  ((r.refYears start stop).map fun y => r.dayIn y * DAY).filter
    fun t => decide (r.from_ start ≤ t) && decide (t ≤ r.until_ stop)

/-- State of a calendar object: window and holidays of the previous computation (`AbstractHolidayCalendar._cache`). (forecast_models.py 1531-1540) -/
abbrev CalCache := Option (Timestamp × Timestamp × List Timestamp)

/-- Can the cached holidays be used for the window? (`start < _cache[0] or end > _cache[1]` in `holidays`.) (forecast_models.py 1531-1540) -/
def CalCache.covers (start stop : Timestamp) : CalCache → Option (List Timestamp)
  | none => none
  | some (s, e, l) => if start < s ∨ stop > e then none else some l

/-- `AbstractHolidayCalendar.holidays(start, end)`: the holidays and the new cache. (forecast_models.py 1531-1540) -/
def calHolidays (rules : List HolidayRule) (cache : CalCache) (start stop : Timestamp) : List Timestamp × CalCache :=
  match cache.covers start stop with
  | some l => (l.filter fun t => decide (start ≤ t) && decide (t ≤ stop), cache)
  | none =>
    let l := sortBy (fun a b : Timestamp => decide (a ≤ b)) (rules.flatMap fun r => r.dates start stop)
    (l.filter fun t => decide (start ≤ t) && decide (t ≤ stop), some (start, stop, l))

/-- `a_date.min()` and `a_date.max()`; `none` (NaT) on empty input. (forecast_models.py 1531-1540) -/
def dateSpan : List Timestamp → Option (Timestamp × Timestamp)
  | [] => none
  | d :: ds => some (ds.foldl min d, ds.foldl max d)

section
variable {K : Type} [Field K] [LinearOrder K]

/-- `f_dummy_calendar`, forecast_models.py 1531-1538, together with the calendar's new cache. Without dates `a_date.min` fails; with no
samples the window is NaT and the year arithmetic fails. -/
def fDummyCalendarSt (rules : List HolidayRule) (cache : CalCache) (ad : Option (List Timestamp)) : Res (List K) × CalCache :=
  match ad with
  | none => (.error .attributeError, cache)
  | some ds => match dateSpan ds with
    | none => (.error .valueError, cache)
    | some (a, b) =>
      let h := calHolidays rules cache a b
      (.ok (isinMask ds h.1), h.2)

/-- `f_dummy_calendar` of a fresh calendar object. That the state does not matter is theorem `C54_stateless`. (forecast_models.py 1528-1540) -/
def fDummyCalendar (rules : List HolidayRule) : DummyFn K := fun _ ad => (fDummyCalendarSt rules none ad).1

/-- `f_dummy_holiday`, forecast_models.py 1544-1554. -/
def fDummyHoliday (r : HolidayRule) : DummyFn K := fun _ ad => match ad with
  | none => .error .attributeError
  | some ds => match dateSpan ds with
    | none => .error .valueError
    | some (a, b) => .ok (isinMask ds (r.dates a b))

/-! ### Adjustments (pandas.tseries.holiday, dateutil) -/

/-- pandas `next_monday`. (forecast_models.py 1638-1686) -/
def nextMonday (d : Int) : Int := if weekdayOfDay d = 5 then d + 2 else if weekdayOfDay d = 6 then d + 1 else d

/-- pandas `next_monday_or_tuesday`. (forecast_models.py 1638-1686) -/
def nextMondayOrTuesday (d : Int) : Int :=
  if weekdayOfDay d = 5 ∨ weekdayOfDay d = 6 then d + 2 else if weekdayOfDay d = 0 then d + 1 else d

/-- pandas `nearest_workday`. (forecast_models.py 1757-1758) -/
def nearestWorkday (d : Int) : Int := if weekdayOfDay d = 5 then d - 1 else if weekdayOfDay d = 6 then d + 1 else d

/-- `+ DateOffset(weekday=WD(n))` for `n > 0` (dateutil `relativedelta`), `WD` given by its number. (forecast_models.py 1638-1686) -/
def weekdayForward (wd n d : Int) : Int := d + (n - 1) * 7 + (7 - weekdayOfDay d + wd) % 7

/-- `+ DateOffset(weekday=WD(-n))` for `n > 0`. (forecast_models.py 1638-1686) -/
def weekdayBack (wd n d : Int) : Int := d - ((n - 1) * 7 + (weekdayOfDay d - wd) % 7)

/-- dateutil `easter(y)` (Western), as a day number. (forecast_models.py 1638-1686) -/
def easterDay (y : Int) : Int :=
  let g := y % 19
  let c := y / 100
  let h := (c - c / 4 - (8 * c + 13) / 25 + 19 * g + 15) % 30
  let i := h - (h / 28) * (1 - (h / 28) * (29 / (h + 1)) * ((21 - g) / 11))
  let j := (y + y / 4 + i + 2 - c + c / 4) % 7
  let p := i - j
  ofCivil y (3 + (p + 26) / 30) (1 + (p + 27 + (p + 6) / 40) % 31)

/-- `+ Easter() + Day(k)` applied to January 1st. (forecast_models.py 1638-1686) -/
def easterOffset (k : Int) (d : Int) : Int := easterDay (yearOfDay d) + k

/-- pandas `GoodFriday`. (forecast_models.py 1638-1686) -/
def goodFriday : HolidayRule := { month := 1, day := 1, adjust := easterOffset (-2) }
/-- pandas `EasterMonday`. (forecast_models.py 1638-1686) -/
def easterMonday : HolidayRule := { month := 1, day := 1, adjust := easterOffset 1 }

/-! ### Calendars -/

/-- Early May bank holiday, forecast_models.py 1643-1645. -/
def earlyMay : HolidayRule := { month := 5, day := 1, adjust := weekdayForward 0 1 }
/-- Spring bank holiday, forecast_models.py 1647-1649. -/
def springHoliday : HolidayRule := { month := 5, day := 31, adjust := weekdayBack 0 1 }
/-- August bank holiday, forecast_models.py 1651-1653. -/
def augustHoliday : HolidayRule := { month := 8, day := 30, adjust := weekdayBack 0 1 }
/-- New Year's Day, forecast_models.py 1659 and 1681. -/
def newYear : HolidayRule := { month := 1, day := 1, adjust := nextMonday }
/-- Christmas, forecast_models.py 1660 and 1682. -/
def christmasDay : HolidayRule := { month := 12, day := 25, adjust := nextMonday }
/-- Boxing Day, forecast_models.py 1661-1662 and 1683-1684. -/
def boxingDay : HolidayRule := { month := 12, day := 26, adjust := nextMondayOrTuesday }
/-- Epiphany, forecast_models.py 1685. -/
def epiphany : HolidayRule := { month := 1, day := 6, adjust := nextMonday }

/-- `CalendarBankHolUK`, forecast_models.py 1638-1654. -/
def bankHolUK : List HolidayRule := [goodFriday, easterMonday, earlyMay, springHoliday, augustHoliday]
/-- `CalendarChristmasUK`, forecast_models.py 1657-1663. -/
def christmasUK : List HolidayRule := [newYear, christmasDay, boxingDay]
/-- `CalendarBankHolIta`, forecast_models.py 1667-1676. -/
def bankHolIta : List HolidayRule :=
  [easterMonday, { month := 4, day := 25 }, { month := 5, day := 1 }, { month := 6, day := 2 }, { month := 8, day := 15 },
   { month := 11, day := 1 }, { month := 12, day := 8 }]
/-- `CalendarChristmasIta`, forecast_models.py 1679-1686. -/
def christmasIta : List HolidayRule := [newYear, christmasDay, boxingDay, epiphany]

/-- pandas `USFederalHolidayCalendar`, used in forecast_models.py 1757-1758. New Year's Day, Martin Luther King, Presidents' Day, Memorial
Day, Independence Day, Labor Day, Columbus Day, Veterans Day, Thanksgiving, Christmas; Juneteenth if the pandas version has it (since 1.4). -/
def usFederal (juneteenth : Bool) : List HolidayRule :=
  [{ month := 1, day := 1, adjust := nearestWorkday },
   { month := 1, day := 1, adjust := weekdayForward 0 3, startDate := some (ofCivil 1986 1 1 * DAY) },
   { month := 2, day := 1, adjust := weekdayForward 0 3 },
   { month := 5, day := 31, adjust := weekdayBack 0 1 },
   { month := 7, day := 4, adjust := nearestWorkday },
   { month := 9, day := 1, adjust := weekdayForward 0 1 },
   { month := 10, day := 1, adjust := weekdayForward 0 2 },
   { month := 11, day := 11, adjust := nearestWorkday },
   { month := 11, day := 1, adjust := weekdayForward 3 4 },
   { month := 12, day := 25, adjust := nearestWorkday }] ++
  if juneteenth then [{ month := 6, day := 19, adjust := nearestWorkday, startDate := some (ofCivil 2021 6 18 * DAY) }] else []

/-- A calendar: name and rules. (forecast_models.py 1638-1686) -/
structure Calendar where
  name : String
  rules : List HolidayRule

/-! ### Models from calendars and date lists -/

/-- `np.sum` / `np.prod` over a non-empty list of models: left fold with `+` or `*`. (forecast_models.py 1740-1746, 1802-1808) -/
def combineModels (mult : Bool) (m : ForecastModel K) (ms : List (ForecastModel K)) : ForecastModel K :=
  ms.foldl (compose mult) m

/-- Initial parameters, forecast_models.py 1733-1738 and 1795-1800. -/
def fInitOnesZeros (n : Nat) : (Nat → K) → InitArgs K → Bool → Res (List (Ext K)) :=
  fun _ _ isMult => .ok (List.replicate n (.fin (if isMult then 1 else 0)))

/-- Model function choosing between sum and product, forecast_models.py 1740-1742 and 1802-1804. -/
def fModelSumOrProd (s p : ForecastModel K) : Ctx K → Params K → Bool → Res (Arr K) :=
  fun ctx params isMult => (if isMult then p else s).fModel ctx params isMult

/-- `get_model_from_calendars`, forecast_models.py 1689-1752. -/
def getModelFromCalendars (cals : List Calendar) (name : Option String) : Res (ForecastModel K) := do
  let l := cals.filter fun c => !c.rules.isEmpty
  match l with
  | [] => .error .assertionError
  | c0 :: _ =>
    let dummies ← l.mapM fun c => getModelDummy (K := K) c.name (fDummyCalendar c.rules)
    match dummies with
    | [] => .error .assertionError
    | m :: ms =>
      let s := combineModels false m ms
      .ok (mkModel (name.getD c0.name) (ms.length + 1) (fModelSumOrProd s (combineModels true m ms))
        (fInit := fInitOnesZeros (ms.length + 1)) (cacheVars := s.cacheVars) (dictFCache := s.dictFCache))

/-- `model_calendar_uk`, forecast_models.py 1755-1756. -/
def modelCalendarUK : Res (ForecastModel K) :=
  getModelFromCalendars [⟨"CalendarChristmasUK", christmasUK⟩, ⟨"CalendarBankHolUK", bankHolUK⟩] (some "calendar_uk")

/-- `model_calendar_us`, forecast_models.py 1757-1758. -/
def modelCalendarUS (juneteenth : Bool) : Res (ForecastModel K) :=
  getModelFromCalendars [⟨"USFederalHolidayCalendar", usFederal juneteenth⟩] (some "calendar_us")

/-- `model_calendar_ita`, forecast_models.py 1760-1761. -/
def modelCalendarIta : Res (ForecastModel K) :=
  getModelFromCalendars [⟨"CalendarChristmasIta", christmasIta⟩, ⟨"CalendarBankHolIta", bankHolIta⟩] (some "calendar_ita")

/-- `get_model_from_datelist`, forecast_models.py 1764-1812 (no cache variables are passed on). -/
def getModelFromDatelist (name : String) (lists : List (List Timestamp)) : Res (ForecastModel K) := do
  let dummies ← lists.mapM fun l => do
    let f ← fDummyDates (K := K) l
    getModelDummy (K := K) "model_dummy" f
  match dummies with
  | [] => .error .assertionError
  | m :: ms =>
    .ok (mkModel name (ms.length + 1) (fModelSumOrProd (combineModels false m ms) (combineModels true m ms))
      (fInit := fInitOnesZeros (ms.length + 1)))

end
end Anticipy
