import Verif.Model.Interval

/-
Outlier detection: `get_iqr_thresholds`, `get_model_outliers`, anticipy/forecast_models.py 1293-1429.
-/
namespace Anticipy
variable {K : Type} [Field K] [LinearOrder K]

/-- `s.diff()` on a column with nulls, forecast_models.py 1332. -/
def colDiff (l : List (Option K)) : List (Option K) :=
  match l with
  | [] => []
  | _ :: t => none :: List.zipWith (fun a b => lift2 (fun v u => v - u) b a) l t

/-- `get_iqr_thresholds`, forecast_models.py 1293-1300. `Series.quantile` skips nulls and interpolates linearly, like `np.percentile`; without any
value the thresholds are NaN. -/
def iqrThresholds [FloorRing K] (l : List (Option K)) : Option (K × K) :=
  match percentile (l.filterMap id) 25, percentile (l.filterMap id) 75 with
  | some q1, some q3 => some (q1 - 3 / 2 * (q3 - q1), q3 + 3 / 2 * (q3 - q1))
  | _, _ => none

/-- `(s < thr_low) | (s > thr_hi)`; comparisons with NaN are false. (forecast_models.py 1339, 1384-1385) -/
def outside (thr : Option (K × K)) (v : Option K) : Bool :=
  match thr, v with
  | some (lo, hi), some v => decide (v < lo ∨ hi < v)
  | _, _ => false

/-- `rolling(window, center=True).max().fillna(0)` on a 0/1 column, forecast_models.py 1343-1346: position `i` covers `window` rows of which
`(window - 1) // 2` follow `i`; incomplete windows give null, that is 0. -/
def rollingAny (window : Nat) (l : List Bool) : List Bool :=
  (List.range l.length).map fun i : Nat =>
    decide (window ≤ i + (window - 1) / 2 + 1) && decide (i + (window - 1) / 2 < l.length) &&
      ((l.drop (i + (window - 1) / 2 + 1 - window)).take window).any id

/-- `s.diff().abs().fillna(0).cumsum()` on a 0/1 column, forecast_models.py 1357-1358: number of changes so far. -/
def changeGroups : List Bool → List Nat
  | [] => []
  | a :: l => go a 0 (a :: l)
where
  /-- Running count; `prev` is the previous entry. -/
  go (prev : Bool) (k : Nat) : List Bool → List Nat
  | [] => []
  | b :: l => (if b = prev then k else k + 1) :: go b (if b = prev then k else k + 1) l

/-- Row of the working table `dfo`: position on the axis (date or x), difference to the previous row, `ischange`,
`ischange_group`, `change_group`. (forecast_models.py 1332-1358) -/
structure ORow (K : Type) where
  key : Int
  dif : Option K
  change : Bool
  inGroup : Bool
  group : Nat
  deriving DecidableEq, Repr

/-- Assemble the working table from its columns. (forecast_models.py 1332-1358) -/
def mkRows : List Int → List (Option K) → List Bool → List Bool → List Nat → List (ORow K)
  | k :: ks, d :: ds, c :: cs, i :: is, g :: gs => ⟨k, d, c, i, g⟩ :: mkRows ks ds cs is gs
  | _, _, _, _, _ => []

/-- Rows of a change group that are changes. (forecast_models.py 1363, 1368) -/
def groupRows (rows : List (ORow K)) (g : Nat) : List (ORow K) := rows.filter fun r => r.change && decide (r.group = g)

/-- Mean with null (no rows) replaced by 0, forecast_models.py 1362-1381. -/
def mean0 (l : List K) : K := if l = [] then 0 else mean l

/-- `mean_group_diff`. (forecast_models.py 1362-1364, 1380) -/
def groupMean (rows : List (ORow K)) (g : Nat) : K := mean0 ((groupRows rows g).filterMap ORow.dif)
/-- `mean_group_diff_abs`. (forecast_models.py 1367-1371, 1381) -/
def groupMeanAbs (rows : List (ORow K)) (g : Nat) : K := mean0 (((groupRows rows g).filterMap ORow.dif).map fun a => |a|)

/-- `is_step`, forecast_models.py 1384-1385. -/
def isStep (thr : Option (K × K)) (rows : List (ORow K)) (r : ORow K) : Bool :=
  r.inGroup && outside thr (some (groupMean rows r.group))

/-- `is_spike`, forecast_models.py 1390-1391. -/
def isSpike (thr : Option (K × K)) (rows : List (ORow K)) (r : ORow K) : Bool :=
  match thr with
  | some (lo, hi) => decide ((hi - lo) / 2 < groupMeanAbs rows r.group - |groupMean rows r.group|)
  | none => false

/-- `outl_start` and `outl_end` of the row's group, forecast_models.py 1394-1420. A group without changes has null bounds: with dates every
comparison is then false, for numbers null becomes 0. -/
def groupSpan (withDates : Bool) (rows : List (ORow K)) (g : Nat) : Option (Int × Int) :=
  match (groupRows rows g).head?, (groupRows rows g).getLast? with
  | some a, some b => some (a.key, b.key)
  | _, _ => if withDates then none else some (0, 0)

/-- `mask_step`, forecast_models.py 1414-1416 and 1425-1427. -/
def maskStep (withDates : Bool) (thr : Option (K × K)) (rows : List (ORow K)) (r : ORow K) : Bool :=
  isStep thr rows r && match groupSpan withDates rows r.group with
    | some (a, b) => decide (a ≤ r.key ∧ r.key ≤ b)
    | none => false

/-- `mask_spike`, forecast_models.py 1411-1413 and 1422-1424. -/
def maskSpike (withDates : Bool) (thr : Option (K × K)) (rows : List (ORow K)) (r : ORow K) : Bool :=
  isSpike thr rows r && match groupSpan withDates rows r.group with
    | some (a, b) => decide (a ≤ r.key ∧ r.key < b)
    | none => false

/-- The working table, forecast_models.py 1332-1358. -/
def outlierRows [FloorRing K] (window : Nat) (keys : List Int) (ys : List (Option K)) : List (ORow K) :=
  let dif := colDiff ys
  let change := dif.map (outside (iqrThresholds dif))
  let inGroup := rollingAny window change
  mkRows keys dif change inGroup (changeGroups inGroup)

/-- The x axis of outlier detection, forecast_models.py 1325-1326. -/
def outlierKeys (df : Frame K) : List Int := if df.hasDate then df.rows.map Row.date else df.rows.map Row.x

/-- `get_model_outliers`, forecast_models.py 1306-1429: step mask and spike mask. -/
def getModelOutliers [FloorRing K] (df : Frame K) (window : Nat) : Res (List Bool × List Bool) :=
  if hasDup (outlierKeys df) then .error .valueError
  else
    let ys := df.rows.map Row.y
    let thr := iqrThresholds (colDiff ys)
    let rows := outlierRows window (outlierKeys df) ys
    if rows.any ORow.change then
      .ok (rows.map (maskStep df.hasDate thr rows), rows.map (maskSpike df.hasDate thr rows))
    else .ok (rows.map fun _ => false, rows.map fun _ => false)

end Anticipy
