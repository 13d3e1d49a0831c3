import Verif.Model.Core

/-
Naive models, anticipy/forecast_models.py 567-664. They predict from the actuals table passed as keyword argument.
-/
namespace Anticipy

/-- pandas `fillna(method='ffill')`. (forecast_models.py 584, 609) -/
def ffillFrom {α : Type} : Option α → List (Option α) → List (Option α)
  | _, [] => []
  | c, v :: l => (v <|> c) :: ffillFrom (v <|> c) l

/-- See forecast_models.py 584, 609. -/
def ffill {α : Type} (l : List (Option α)) : List (Option α) := ffillFrom none l

/-- pandas `fillna(method='bfill')`. (forecast_models.py 585) -/
def bfill {α : Type} : List (Option α) → List (Option α)
  | [] => []
  | v :: l => (v <|> ((bfill l).head?.join)) :: bfill l

/-- pandas `shift(1)`. (forecast_models.py 583, 609) -/
def shift1 {α : Type} (l : List (Option α)) : List (Option α) := (none :: l).take l.length

variable {K : Type} [Field K] [LinearOrder K]

/-- Row of the merged table: x and y. (forecast_models.py 576-581) -/
structure XY (K : Type) where
  x : K
  y : Option K
  deriving DecidableEq

/-- A requested point: x and, if dates are given, the date. (forecast_models.py 575, 643) -/
structure Query (K : Type) where
  x : K
  date : Option Timestamp
  deriving DecidableEq

/-- `pd.DataFrame({'date': a_date, 'x': a_x})`; arrays of different length raise `ValueError`. (forecast_models.py 575, 643) -/
def queries (ctx : Ctx K) : Res (List (Query K)) :=
  match ctx.adate with
  | none => .ok (ctx.ax.map fun x => ⟨x, none⟩)
  | some ds => if ds.length = ctx.ax.length then .ok (List.zipWith (fun x d => ⟨x, some d⟩) ctx.ax ds) else .error .valueError

/-- Join condition on the common columns: x, and the date if the actuals have one. (forecast_models.py 579, 656) -/
def joins (hasDate : Bool) (r : Row K) (q : Query K) : Bool :=
  decide ((r.x : K) = q.x) && (!hasDate || decide (q.date = some r.date))

/-- Outer merge of actuals and requested points, forecast_models.py 576-581; the order is irrelevant because of the sort that follows. -/
def outerMerge (hasDate : Bool) (left : List (Row K)) (right : List (Query K)) : List (XY K) :=
  left.flatMap (fun r => match right.filter (joins hasDate r) with
    | [] => [⟨(r.x : K), r.y⟩]
    | ms => ms.map fun _ => ⟨(r.x : K), r.y⟩) ++
  (right.filter fun q => !left.any fun r => joins hasDate r q).map fun q => ⟨q.x, none⟩

/-- `sort_values('x')` on merged rows. (forecast_models.py 580) -/
def xyLe (a b : XY K) : Bool := decide (a.x ≤ b.x)

/-- `_f_model_naive`, forecast_models.py 572-591. Cache variables are unexpected keyword arguments; merging dated actuals with undated points raises. -/
def fModelNaive (srt : SortAlg) : Ctx K → Params K → Bool → Res (Arr K) := fun ctx _ _ =>
  if ctx.hasCache then .error .typeError
  else match ctx.actuals with
  | none => .error .valueError
  | some df => do
    let qs ← queries ctx
    if df.hasDate && ctx.adate.isNone then .error .valueError
    else
      let s := srt.run xyLe (outerMerge df.hasDate (dedupBy Row.x df.rows) qs)
      let ys := bfill (ffill (shift1 (s.map XY.y)))
      .ok (.vec (((s.zip ys).filter fun e => decide (e.1.x ∈ ctx.ax)).map Prod.snd))

/-- `model_naive`, forecast_models.py 594. -/
def modelNaive (srt : SortAlg) : ForecastModel K := mkModel "naive" 0 (fModelNaive srt)

/-- Row of the actuals with the value of the model, forecast_models.py 602-621. -/
structure WdayRow (K : Type) where
  row : Row K
  yOut : Option K

/-- `add_col_y_out`, forecast_models.py 608-610, on the rows of one weekday. -/
def addYOut (l : List (Row K)) : List (WdayRow K) :=
  List.zipWith WdayRow.mk l (ffill (shift1 (l.map Row.y)))

/-- See forecast_models.py 616. -/
def wdayRowLe (a b : WdayRow K) : Bool := decide (a.row.x ≤ b.row.x)

/-- `_fillna_wday`, forecast_models.py 602-621. -/
def fillnaWday (srt : SortAlg) (rows : List (Row K)) : List (WdayRow K) :=
  srt.run wdayRowLe ((List.range 7).flatMap fun w : Nat => addYOut (rows.filter fun r => decide (weekday r.date = (w : Int))))

/-- Last row with the given weekday: `drop_duplicates('wday', keep='last')` looked up by weekday, forecast_models.py 633-640, with null values
replaced by those of previous weeks. -/
def lastWeek (rows : List (WdayRow K)) (w : Int) : Option K :=
  match (rows.filter fun r => decide (weekday r.row.date = w)).getLast? with
  | none => none
  | some r => r.row.y <|> r.yOut

/-- A requested point with its date and model value. (forecast_models.py 643-663) -/
structure PointOut (K : Type) where
  x : K
  yOut : Option K

/-- See forecast_models.py 649, 657. -/
def pointLe (a b : PointOut K) : Bool := decide (a.x ≤ b.x)

/-- `_f_model_snaive_wday`, forecast_models.py 622-664: first the points found in the actuals, then the others. -/
def fModelSnaiveWday (srt : SortAlg) : Ctx K → Params K → Bool → Res (Arr K) := fun ctx _ _ =>
  if ctx.hasCache then .error .typeError
  else match ctx.actuals with
  | none => .error .valueError
  | some df =>
    if !df.hasDate then .error .attributeError
    else match ctx.adate with
    | none => .error .attributeError
    | some ds =>
      if ds.length ≠ ctx.ax.length then .error .valueError
      else
        let act := fillnaWday srt (dedupBy Row.x df.rows)
        let pts := ctx.ax.zip ds
        let found := act.flatMap fun r => (pts.filter fun p => decide (p.1 = (r.row.x : K)) && decide (p.2 = r.row.date)).map
          fun p => PointOut.mk p.1 r.yOut
        let extra := (pts.filter fun p => !act.any fun r => decide (r.row.date = p.2)).map
          fun p => PointOut.mk p.1 (lastWeek act (weekday p.2))
        .ok (.vec ((srt.run pointLe found ++ srt.run pointLe extra).map PointOut.yOut))

/-- `model_snaive_wday`, forecast_models.py 667. -/
def modelSnaiveWday (srt : SortAlg) : ForecastModel K := mkModel "snaive_wday" 0 (fModelSnaiveWday srt)

end Anticipy
