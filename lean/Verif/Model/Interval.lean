import Verif.Model.Freq
import Verif.Model.Zoo
import Mathlib.Algebra.Order.Floor.Ring

/-
Prediction intervals: `_get_days_from_freq`, `get_pi`, `_df_add_pi_percentiles`, `_get_pi_single_source`,
anticipy/forecast.py 1565-1805.
-/
namespace Anticipy

/-- Row of a forecast table (output of `run_forecast_single`, input of `get_pi`). `none` is a null cell; columns that the table
does not have are meaningless. (forecast.py 1676-1728) -/
structure FRow (K : Type) where
  date : Timestamp
  source : Option String
  model : String
  isActuals : Bool
  isBest : Bool
  y : Option K
  weight : Option K
  deriving DecidableEq, Repr

/-- A forecast table. `numDate`: the date column holds numbers (series without dates, forecast.py 1388-1396). -/
structure FTable (K : Type) where
  numDate : Bool
  hasSource : Bool
  hasBest : Bool
  hasWeight : Bool
  rows : List (FRow K)
  deriving DecidableEq, Repr

/-- Row of the table with prediction intervals. `q` lists the quantile columns with their percentile; a row without quantiles
(null in all quantile columns) has the empty list. (forecast.py 1796-1805) -/
structure PRow (K : Type) where
  date : Timestamp
  source : Option String
  model : String
  isActuals : Bool
  y : Option K
  q : List (K × Option K)
  deriving DecidableEq, Repr

/-- `_get_days_from_freq`, forecast.py 1565-1573, on the first letter of the frequency code. -/
def daysFromFreq : Freq → Int
  | .Y | .YS => 365
  | .M | .MS => 30
  | .W _ => 7
  | .D | .H | .Q => 1

section
variable {K : Type} [Field K] [LinearOrder K]

/-- `np.percentile(col, q)` (numpy, default linear interpolation between the two closest ranks). (forecast.py 1647) -/
def percentile [FloorRing K] (col : List K) (q : K) : Option K :=
  let s := sortBy (fun a b : K => decide (a ≤ b)) col
  let pos : K := ((s.length - 1 : Nat) : K) * q / 100
  match s[⌊pos⌋₊]?, s[⌊pos⌋₊ + 1]? with
  | some a, some b => some (a + (pos - ((⌊pos⌋₊ : Nat) : K)) * (b - a))
  | some a, none => some a
  | none, _ => none

/-- Column `j` of a two-dimensional array given by its rows. (forecast.py 1647) -/
def column (a : List (List K)) (j : Nat) : List K := a.filterMap fun r => r[j]?

/-- `_df_add_pi_percentiles`, forecast.py 1628-1653: the rows of the table with quantile columns. The dictionary of quantiles has one entry per
distinct percentile. -/
def addPercentiles [FloorRing K] (rows : List (FRow K)) (sample : List (List K)) (q1 q2 : K) : Res (List (PRow K)) := do
  pyAssert (decide (0 < q1 ∧ q1 < 100 ∧ 0 < q2 ∧ q2 < 100))
  let ps := dedupBy (fun p : K => p) [q1, 100 - q1, q2, 100 - q2]
  .ok (rows.mapIdx fun j r =>
    { date := r.date, source := r.source, model := r.model, isActuals := false, y := r.y,
      q := ps.map fun p => (p, lift2 (· + ·) r.y (percentile (column sample j) p)) })

/-- `s.sample(n, replace=True).values`: arbitrary draws (`draw i` is reduced to a position of `s`). Sampling from an empty series fails. (forecast.py 1757-1761, 1769-1773, 1788-1792) -/
def sampleWith (draw : Nat → Nat) (s : List K) (n : Nat) : Res (List K) :=
  if s = [] ∧ n ≠ 0 then .error .valueError
  else .ok ((List.range n).map fun i => s.getD (draw i % s.length) 0)

/-- `a.reshape(rows, cols)`. (forecast.py 1760, 1772, 1791) -/
def reshape (rows cols : Nat) (a : List K) : Res (List (List K)) :=
  if a.length = rows * cols then .ok ((List.range rows).map fun i => (a.drop (i * cols)).take cols)
  else .error .valueError

/-- Running sums of one row, `np.cumsum(…, axis=1)`. (forecast.py 1762) -/
def cumsum (acc : K) : List K → List K
  | [] => []
  | a :: l => (acc + a) :: cumsum (acc + a) l

/-- `np.repeat(…, n_cum, axis=1)` on one row. (forecast.py 1764-1767) -/
def repeatEach (n : Nat) (l : List K) : List K := l.flatMap fun a => List.replicate n a

/-- Elementwise sum of two arrays; arrays of different widths raise `ValueError` (broadcasting of width 1 is not modelled: the widths
are always equal, see `C46`). (forecast.py 1774) -/
def addRows (a b : List (List K)) : Res (List (List K)) :=
  if a.map List.length = b.map List.length then .ok (List.zipWith (List.zipWith (· + ·)) a b) else .error .valueError

/-- Accumulation period in samples, forecast.py 1681-1691: numeric dates count as daily; an undetectable frequency has no `startswith`
(`AttributeError`). -/
def cumPeriod (t : FTable K) (rows : List (FRow K)) (nCum : Int) : Res Nat := do
  let d ← if t.numDate then .ok 1 else
    match detectFreq (rows.map FRow.date) with
    | none => .error .attributeError
    | some f => .ok (daysFromFreq f)
  let n := nCum.tdiv d
  .ok (if n < 1 then 1 else n.toNat)

/-- Actual samples that residuals are computed from. (forecast.py 1708-1720) -/
structure ActualRow (K : Type) where
  date : Timestamp
  value : K
  source : Option String
  deriving DecidableEq, Repr

/-- Non-null actual rows, forecast.py 1708-1709 and 1716-1717. -/
def actualsUnfiltered (rows : List (FRow K)) : List (FRow K) := rows.filter fun r => r.isActuals && r.y.isSome

/-- Is there a zero weight (forecast.py 1698)? -/
def anyZeroWeight (t : FTable K) (rows : List (FRow K)) : Bool := t.hasWeight && rows.any fun r => decide (r.weight = some 0)

/-- Actuals with positive weight, forecast.py 1698-1721; the boolean says whether the table has a source column. With zero weights the
date/source table of the samples with positive weight is joined on the date; without source column selecting it raises `KeyError`. -/
def actualsFiltered (t : FTable K) (rows : List (FRow K)) : Res (List (ActualRow K) × Bool) :=
  if anyZeroWeight t rows then
    if t.hasSource then
      let dates := rows.filter fun r => r.isActuals && decide (∃ w ∈ r.weight, 0 < w)
      .ok ((actualsUnfiltered rows).flatMap (fun r =>
        (dates.filter fun d => decide (d.date = r.date)).filterMap fun d =>
          r.y.map fun v => ⟨r.date, v, d.source⟩), true)
    else .error .keyError
  else .ok ((actualsUnfiltered rows).filterMap (fun r => r.y.map fun v => ⟨r.date, v, none⟩), false)

/-- Residuals: actual minus forecast for every matching pair of a non-null forecast row and an actual, forecast.py 1722-1731. -/
def residuals (rows : List (FRow K)) (acts : List (ActualRow K)) (onSource : Bool) : List K :=
  (rows.filter fun r => !r.isActuals).flatMap fun r =>
    match r.y with
    | none => []
    | some f => (acts.filter fun a => decide (a.date = r.date ∧ (onSource = true → a.source = r.source))).map fun a => a.value - f

/-- Residuals without their mean, forecast.py 1746-1748. -/
def centred (l : List K) : List K := l.map fun a => a - mean l

/-- An actual row of the result, forecast.py 1737 and 1796-1797. -/
def actualOut (r : FRow K) : PRow K := ⟨r.date, r.source, r.model, true, r.y, []⟩

/-- Simulated deviations of future samples, forecast.py 1750-1774. -/
def futureSample (draw : Nat → Nat → Nat) (res : List K) (nSims nCum n : Nat) : Res (List (List K)) := do
  let nShort := ⌈(n : ℚ) / (nCum : ℚ)⌉.toNat
  let s1 ← sampleWith (draw 0) res (nShort * nSims)
  let cum ← reshape nSims nShort s1
  let expanded := (cum.map (cumsum 0)).map fun r => (repeatEach nCum r).take n
  let s2 ← sampleWith (draw 1) res (n * nSims)
  let base ← reshape nSims n s2
  addRows base expanded

/-- Simulated deviations of past samples, forecast.py 1787-1792. -/
def pastSample (draw : Nat → Nat → Nat) (res : List K) (nSims n : Nat) : Res (List (List K)) := do
  let s ← sampleWith (draw 2) res (n * nSims)
  reshape nSims n s

/-- Actual rows and rows of the best fit, forecast.py 1676-1680. -/
def selectRows (t : FTable K) : List (FRow K) :=
  if t.hasBest then t.rows.filter (fun r => r.isActuals || r.isBest) else t.rows

/-- `_get_pi_single_source`, forecast.py 1656-1805. `draw` are the random draws of the three sampling calls. -/
def piSingle [FloorRing K] (draw : Nat → Nat → Nat) (t : FTable K) (nSims : Nat) (nCum : Int) (q1 q2 : K) :
    Res (List (PRow K)) := do
  let rows := selectRows t
  let n ← cumPeriod t rows nCum
  let (acts, onSource) ← actualsFiltered t rows
  let res := residuals rows acts onSource
  match listMax (acts.map ActualRow.date), res with
  | some last, _ :: _ => do
    let future := rows.filter fun r => !r.isActuals && decide (last < r.date)
    let fs ← futureSample draw (centred res) nSims n future.length
    let futureOut ← addPercentiles future fs q1 q2
    let past := rows.filter fun r => !r.isActuals && decide (r.date ≤ last)
    let ps ← pastSample draw (centred res) nSims past.length
    let pastOut ← addPercentiles past ps q1 q2
    .ok ((actualsUnfiltered rows).map actualOut ++ pastOut ++ futureOut)
  | _, _ =>
    -- no residuals: the warning needs a source column and a row (lines 1740-1746)
    if t.hasSource then
      if rows = [] then .error .indexError else .ok ((actualsUnfiltered rows).map actualOut)
    else .error .attributeError

/-- Order of the combined table, forecast.py 1619: source, actuals last, date. -/
def prowLe (a b : PRow K) : Bool :=
  decide (a.source.getD "" < b.source.getD "" ∨ (a.source.getD "" = b.source.getD "" ∧
    ((a.isActuals = false ∧ b.isActuals = true) ∨ (a.isActuals = b.isActuals ∧ a.date ≤ b.date))))

/-- Loop over the groups, `groupby('source').apply(…)`, forecast.py 1615-1618. -/
def piGroups [FloorRing K] (draw : Nat → Nat → Nat → Nat) (t : FTable K) (nSims : Nat) (nCum : Int) (q1 q2 : K) :
    Nat → List String → Res (List (PRow K))
  | _, [] => .ok []
  | k, s :: l => do
    let p ← piSingle (draw k) { t with rows := t.rows.filter fun r => decide (r.source = some s) } nSims nCum q1 q2
    let r ← piGroups draw t nSims nCum q1 q2 (k + 1) l
    .ok (p ++ r)

/-- The distinct non-null source labels in increasing order (the groups of `groupby`, which drops null labels). (forecast.py 1616) -/
def groupKeys (rows : List (FRow K)) : List String :=
  sortBy (fun a b : String => decide (a ≤ b)) (dedupBy (fun s : String => s) (rows.filterMap FRow.source))

/-- `get_pi`, forecast.py 1576-1625. `nCum = none` takes the period of the widening frequency. -/
def getPi [FloorRing K] (draw : Nat → Nat → Nat → Nat) (t : FTable K) (nSims : Nat) (nCum : Option Int) (q1 q2 : K)
    (widening : Freq) : Res (List (PRow K)) :=
  let n := nCum.getD (daysFromFreq widening)
  if t.hasSource ∧ 1 < (groupKeys t.rows).length then do
    let r ← piGroups draw t nSims n q1 q2 0 (groupKeys t.rows)
    .ok (sortBy prowLe r)
  else piSingle (draw 0) t nSims n q1 q2

end

end Anticipy
