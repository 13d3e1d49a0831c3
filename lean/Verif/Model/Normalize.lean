import Verif.Model.Freq

/-
`normalize_df`, anticipy/forecast.py 299-404.
-/
namespace Anticipy

/-- Row of a table with several sources. `source = none` is a null label. Columns that the table does not have are meaningless. (forecast.py 299-325) -/
structure SRow (K : Type) where
  date : Timestamp
  source : Option String
  x : Int
  y : Option K
  weight : Option K
  deriving DecidableEq, Repr

/-- Input or output table of `normalize_df`. `hasDate` stands for a date column or a `DatetimeIndex` (forecast.py 367-373). Renaming of columns
and type conversions (lines 338-373) are in `Model/Columns`. -/
structure STable (K : Type) where
  hasDate : Bool
  hasSource : Bool
  hasX : Bool
  hasWeight : Bool
  rows : List (SRow K)
  deriving DecidableEq, Repr

variable {K : Type}

/-- Assign a column of x values. (forecast.py 379-384) -/
def assignX (rows : List (SRow K)) (xs : List Int) : List (SRow K) :=
  List.zipWith (fun (r : SRow K) (x : Int) => { r with x := x }) rows xs

/-- The x column of one source, lines 372-382. A missing x is derived from dates, which raises an `IndexError` for an empty part
(`s_date.iloc[0]`, model_utils.py 120), or is the position of the row (the index was reset in line 374). -/
def withX (t : STable K) (part : List (SRow K)) : Res (List (SRow K)) :=
  if t.hasX then .ok part
  else if t.hasDate then
    match part with
    | [] => .error .indexError
    | part => .ok (assignX part (normalizedX (part.map SRow.date)))
  else .ok (assignX part ((List.range part.length).map fun i : Nat => (i : Int)))

/-- Rows with a given source label; a null label equals nothing (forecast.py 364). -/
def sourcePart (rows : List (SRow K)) (s : Option String) : List (SRow K) :=
  rows.filter fun r => decide (r.source = s ∧ s ≠ none)

/-- Loop over the sources and concatenation, forecast.py 358-386 and 397. -/
def collectSources (t : STable K) : List (Option String) → Res (List (SRow K))
  | [] => .ok []
  | s :: l => do
    let p ← withX t (sourcePart t.rows s)
    let r ← collectSources t l
    .ok (p ++ r)

/-- Order by source, then x (forecast.py 402). -/
def sourceXLe (a b : SRow K) : Bool :=
  decide (a.source.getD "" < b.source.getD "" ∨ (a.source.getD "" = b.source.getD "" ∧ a.x ≤ b.x))

/-- `normalize_df`, forecast.py 299-404. `none` is Python's `None` for an empty table. `srt` is the unstable single-key sort; the
two-key sort is stable. -/
def normalizeDf (srt : SortAlg) (t : STable K) : Res (Option (STable K)) :=
  if t.rows = [] then .ok none
  else if t.hasSource then do
    let rows ← collectSources t (dedupBy (fun s : Option String => s) (t.rows.map SRow.source))
    .ok (some { t with hasX := true, rows := sortBy sourceXLe rows })
  else do
    let rows ← withX t t.rows
    .ok (some { t with hasX := true, rows := srt.run (fun a b : SRow K => decide (a.x ≤ b.x)) rows })

end Anticipy
