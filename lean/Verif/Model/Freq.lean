import Verif.Model.Core
import Mathlib.Data.Rat.Floor

/-
Frequencies, date grids, extrapolated x axis and gap filling: anticipy/model_utils.py lines 29-221 and 300-396.
-/
namespace Anticipy

/-- The frequency codes that `detect_freq` (model_utils.py 300-339) can return: 'H', 'D', 'W-MON'..'W-SUN' (`W 0`..`W 6`,
`dict_wday_name` lines 29-37), 'MS', 'M', 'Q', 'YS', 'Y'. Other pandas aliases passed by users are not modelled. -/
inductive Freq where
  | H | D | W (wd : Int) | MS | M | Q | YS | Y
  deriving DecidableEq, Repr

/-- pandas `Series.diff()` without the leading null. (model_utils.py 306-307) -/
def diffs (l : List Int) : List Int := (pairs l).map fun p => p.2 - p.1

/-- `detect_freq`, model_utils.py 300-339, on the date values. -/
def detectFreq (dates : List Timestamp) : Option Freq :=
  let s := dedupBy (fun t : Timestamp => t) (sortBy (fun a b : Timestamp => decide (a ≤ b)) dates)
  match listMin (diffs s) with
  | none => none
  | some d =>
    if d = HOUR then some .H
    else if d = 7 * DAY then
      match listMin s with
      | none => none
      | some t => some (.W (weekday t))
    else if 28 * DAY ≤ d ∧ d ≤ 31 * DAY then
      if listMax (s.map dom) = some 1 then some .MS else some .M
    else if 89 * DAY ≤ d ∧ d ≤ 92 * DAY then some .Q
    else if 365 * DAY ≤ d ∧ d ≤ 366 * DAY then
      if listMax (s.map dom) = some 1 ∧ listMax (s.map month) = some 1 then some .YS else some .Y
    else if 23 * HOUR ≤ d then some .D
    else none

/-- `get_normalized_x_from_date`, model_utils.py 118-124: whole days since the Monday on or before the first row
(which keeps the first row's time of day). -/
def normalizedX (dates : List Timestamp) : List Int :=
  match dates with
  | [] => []
  | d :: _ => dates.map fun t => (t - (d - weekday d * DAY)) / DAY

/-! ### `pd.date_range` and `pd.DateOffset` (pandas, external) -/

/-- Day number of the `k`-th anchor of a calendar frequency. (model_utils.py 195-199, 388) -/
def anchorDay : Freq → Int → Int
  | .H, k => k
  | .D, k => k
  | .W wd, k => 7 * k + wd - 3
  | .MS, k => monthStart k
  | .M, k => monthEnd k
  | .Q, k => monthEnd (3 * k + 2)
  | .YS, k => monthStart (12 * k)
  | .Y, k => monthEnd (12 * k + 11)

/-- Index of the first anchor on or after day `d`. (model_utils.py 195-199) -/
def anchorIdx : Freq → Int → Int
  | .H, d => d
  | .D, d => d
  | .W wd, d => (d + 9 - wd) / 7
  | .MS, d => if domOfDay d = 1 then monthIdxOfDay d else monthIdxOfDay d + 1
  | .M, d => monthIdxOfDay d
  | .Q, d => monthIdxOfDay d / 3
  | .YS, d => if domOfDay d = 1 ∧ monthOfDay d = 1 then yearOfDay d else yearOfDay d + 1
  | .Y, d => yearOfDay d

/-- `offset.rollforward(t)`: to the anchor on or after `t`, keeping the time of day. (model_utils.py 195-199) -/
def rollForward (f : Freq) (t : Timestamp) : Timestamp := anchorDay f (anchorIdx f (dayOf t)) * DAY + todOf t
/-- `offset.is_on_offset(t)`. (model_utils.py 195-199) -/
def onOffset (f : Freq) (t : Timestamp) : Bool := rollForward f t = t
/-- `offset.rollback(t)`. (model_utils.py 195-199) -/
def rollBack (f : Freq) (t : Timestamp) : Timestamp :=
  if onOffset f t then t else anchorDay f (anchorIdx f (dayOf t) - 1) * DAY + todOf t
/-- `t + offset` for `t` on the grid. (model_utils.py 195-199) -/
def nextAnchor (f : Freq) (t : Timestamp) : Timestamp := anchorDay f (anchorIdx f (dayOf t) + 1) * DAY + todOf t

/-- The generating loop of `pd.date_range`: `while cur <= end: yield cur; cur += offset`. The first argument bounds the
number of iterations. (model_utils.py 195-199) -/
def genRange (next : Timestamp → Timestamp) (stop : Timestamp) : Nat → Timestamp → List Timestamp
  | 0, _ => []
  | n + 1, cur => if cur ≤ stop then cur :: genRange next stop n (next cur) else []

/-- `pd.date_range(start, end, freq=f)`: fixed steps for 'H' and 'D'; otherwise pandas' `generate_range`, which rolls the start
forward or (if the start is on the grid) the end back. (model_utils.py 195-199, 388) -/
def dateRange (start stop : Timestamp) (f : Freq) : List Timestamp :=
  let fuel := ((stop - start) / HOUR + 1).toNat
  match f with
  | .H => genRange (· + HOUR) stop fuel start
  | .D => genRange (· + DAY) stop fuel start
  | f =>
    let stop' := if onOffset f start then rollBack f stop else stop
    genRange (nextAnchor f) stop' fuel (rollForward f start)

/-- Adding `n` calendar months; the day of the month is clipped to the length of the target month (`relativedelta`). (model_utils.py 192-193) -/
def addMonths (n : Int) (t : Timestamp) : Timestamp :=
  let k := monthIdxOfDay (dayOf t) + n
  (monthStart k + (min (dom t) (daysInMonth (k / 12) (k % 12 + 1)) - 1)) * DAY + todOf t

/-- `dict_freq_units_per_year`, model_utils.py 98-106, on the first letter of the frequency. -/
def unitsPerYear : Freq → ℚ
  | .YS | .Y => 1
  | .D => 365
  | .W _ => 52
  | .MS | .M => 12
  | .Q => 4
  | .H => 24 * 365

/-- `date + pd.DateOffset(**{unit: extrapolate_years * units})`, model_utils.py 188-193. `dict_dateoffset_input` (lines 108-115)
has no entry for 'Q', so the keyword is `None`: `TypeError`. Fractional months or years: `ValueError` (relativedelta). Fractional
days/weeks/hours are kept to the nanosecond (the microsecond rounding of `timedelta` is not modelled). -/
def addHorizon (f : Freq) (y : ℚ) (t : Timestamp) : Res Timestamp :=
  let u := y * unitsPerYear f
  match f with
  | .H => .ok (t + ⌊u * (HOUR : ℚ)⌋)
  | .D => .ok (t + ⌊u * (DAY : ℚ)⌋)
  | .W _ => .ok (t + ⌊u * 7 * (DAY : ℚ)⌋)
  | .MS | .M => if u.den = 1 then .ok (addMonths u.num t) else .error .valueError
  | .YS | .Y => if u.den = 1 then .ok (addMonths (12 * u.num) t) else .error .valueError
  | .Q => .error .typeError

/-- `get_s_x_extrapolate` with dates, model_utils.py 168-204: pairs of date (index) and x. -/
def sxExtrapolateDate (start stop : Timestamp) (freq : Option Freq) (y : ℚ) (x0 : Int) :
    Res (List (Timestamp × Int)) := do
  let f ← match freq with
    | none => .ok (Freq.W (weekday start))
    | some (.W wd) => do pyAssert (decide (weekday start = wd)); .ok (Freq.W wd)
    | some f => .ok f
  let e ← addHorizon f y stop
  .ok ((dateRange start e f).map fun t => (t, (t - start) / DAY + x0))

/-- `np.arange(a, b)` for an integer start: `ceil(b - a)` values. (model_utils.py 208-217) -/
def arange (a : Int) (b : ℚ) : List Int := (List.range (⌈b - (a : ℚ)⌉).toNat).map fun i : Nat => a + (i : Int)

/-- `get_s_x_extrapolate` without dates, model_utils.py 205-218: pairs of index and x. -/
def sxExtrapolateNum (start stop : Int) (y : ℚ) (x0 : Int) : List (Int × Int) :=
  let index := arange start ((stop : ℚ) + 100 * y)
  let data := arange x0 ((x0 : ℚ) + (index.length : ℚ))
  List.zip index (data.map (· + x0))

/-! ### Gap filling -/

/-- Distance to and value of the next non-null cell. (model_utils.py 357, 389, 393) -/
def nextVal {F : Type} : List (Option F) → Option (Nat × F)
  | [] => none
  | some v :: _ => some (1, v)
  | none :: l => (nextVal l).map fun p => (p.1 + 1, p.2)

/-- Value of a null cell after `a`: on the straight line to the next value (if any). (model_utils.py 357, 389, 393) -/
def interpStep {F : Type} [Field F] (a : F) : Option (Nat × F) → F
  | none => a
  | some (n, b) => a + (b - a) / ((n : F) + 1)

/-- pandas `Series.interpolate()` (linear in the position, forward only): nulls after a value are filled on the straight line to the
next value, trailing nulls repeat the last value, leading nulls stay. `prev` is the last value (possibly already interpolated). (model_utils.py 357, 389, 393) -/
def interpolateFrom {F : Type} [Field F] (prev : Option F) : List (Option F) → List (Option F)
  | [] => []
  | some v :: l => some v :: interpolateFrom (some v) l
  | none :: l =>
    match prev with
    | none => none :: interpolateFrom none l
    | some a =>
      some (interpStep a (nextVal l)) :: interpolateFrom (some (interpStep a (nextVal l))) l

/-- `Series.interpolate()`. (model_utils.py 357, 389, 393) -/
def interpolateCol {F : Type} [Field F] (l : List (Option F)) : List (Option F) := interpolateFrom none l

/-- `.astype(int)` on a float column: truncation towards zero, `ValueError` on nulls. (model_utils.py 393) -/
def toIntCol : List (Option ℚ) → Res (List Int)
  | [] => .ok []
  | none :: _ => .error .valueError
  | some v :: l => do
    let r ← toIntCol l
    .ok ((if v < 0 then ⌈v⌉ else ⌊v⌋) :: r)

/-- Number of distinct consecutive differences (`.diff().nunique()`). (model_utils.py 345, 373) -/
def nuniqueDiff (l : List Int) : Nat := (dedupBy (fun d : Int => d) (diffs l)).length

variable {K : Type}

/-- A row of the gap-filled table: the matching row of the input, or a row whose x is still to be interpolated. (model_utils.py 353-359, 386-391) -/
def findRow (rows : List (Row K)) (t : Timestamp) : Option (Row K) := rows.find? fun r => decide (r.date = t)

/-- The exception for constant gaps of more than a day, model_utils.py 369-378. -/
def sparseDaily (freq : Option Freq) : List Int → Bool
  | d :: _ => decide (freq = some .D ∧ DAY < d)
  | [] => false

/-- `interpolate_df(df, interpolate_y=False)`, lines 342-396 (the only form used by the forecasting code, forecast.py 1326).
New rows have null y and weight; `x` is interpolated and truncated. -/
def interpolateDf (df : Frame K) : Res (Frame K) :=
  if df.hasDate then
    let dates := dedupBy (fun t : Timestamp => t) (df.rows.map Row.date)
    let freq := detectFreq (df.rows.map Row.date)
    if nuniqueDiff dates ≤ 1 ∧ sparseDaily freq (diffs dates) = false then .ok df
    else if hasDup (df.rows.map Row.date) then .error .valueError
    else
      match listMin (df.rows.map Row.date), listMax (df.rows.map Row.date) with
      | some a, some b =>
        let grid := dateRange a b (freq.getD .D)
        let found := grid.map fun t => (t, findRow df.rows t)
        match toIntCol (interpolateCol (found.map fun p => p.2.map fun r => ((r.x : Int) : ℚ))) with
        | .error e => .error e
        | .ok xs =>
          .ok { df with rows := List.zipWith (fun (p : Timestamp × Option (Row K)) (x : Int) =>
            { date := p.1, x := x, y := p.2.bind Row.y, weight := p.2.bind Row.weight }) found xs }
      | _, _ => .ok df
  else
    let xs := dedupBy (fun t : Int => t) (df.rows.map Row.x)
    if nuniqueDiff xs ≤ 1 then .ok df
    else if hasDup (df.rows.map Row.x) then .error .valueError
    else
      match listMin (df.rows.map Row.x), listMax (df.rows.map Row.x) with
      | some a, some b =>
        .ok { df with rows := (List.range (b + 1 - a).toNat).map fun i : Nat =>
          match df.rows.find? (fun r => decide (r.x = a + (i : Int))) with
          | some r => r
          | none => { date := 0, x := a + (i : Int), y := none, weight := none } }
      | _, _ => .ok df

end Anticipy
