import Verif.Spec.Run
import Verif.Spec.Superposition
import Verif.Spec.Similar
import Verif.Spec.RowOrder

/-
One series of a table as a user supplies it: dates without x, in any order, with or without sources.
-/
namespace Anticipy.Spec
variable {K : Type}

/-- The part of the result for one series: for a table with sources the rows of source `s`, otherwise everything. -/
def partOf (t : STable K) (s : String) (res : RunResult K) : RunResult K := if t.hasSource then resultOf s res else res

/-- The rows of one series of a table. -/
def rowsOf (t : STable K) (s : String) : List (SRow K) := if t.hasSource then (only s t).rows else t.rows

/-- The label of the series: for a table without sources the argument `source_id`. -/
def IsSeries (t : STable K) (id s : String) : Prop := if t.hasSource then ∃ r ∈ t.rows, r.source = some s else s = id ∧ t.rows ≠ []

/-- The table has one row per date and source, all at the same time of day, and every row has a source if there are sources. -/
structure Proper (t : STable K) : Prop where
  onePerDate : OnePerDate t
  labelled : t.hasSource = true → ∀ r ∈ t.rows, r.source ≠ none

/-- Monday of the week of the date that is listed first for the series (1970-01-01 was a Thursday). Days are counted from here. -/
def originOf (t : STable K) (s : String) : Timestamp :=
  match rowsOf t s with
  | [] => 0
  | r :: _ => r.date - ((r.date / (24 * 60 * 60 * 1000000000) + 3) % 7) * (24 * 60 * 60 * 1000000000)

/-- The series: its rows in order of the dates, with the number of days since the origin. -/
def seriesFrame (t : STable K) (s : String) : Frame K :=
  ⟨true, t.hasWeight, (sortBy (fun a b => decide (a.date ≤ b.date)) (rowsOf t s)).map fun r =>
    ⟨r.date, (r.date - originOf t s) / (24 * 60 * 60 * 1000000000), r.y, r.weight⟩⟩

/-- All values of the table in another unit. -/
def rescaledTable [Add K] [Mul K] (c d : K) (t : STable K) : STable K := { t with rows := t.rows.map fun r => { r with y := r.y.map fun v => c * v + d } }

/-- All weights of the table multiplied. -/
def reweightedTable [Mul K] (k : K) (t : STable K) : STable K := { t with rows := t.rows.map fun r => { r with weight := r.weight.map fun w => k * w } }

/-- All dates of the table moved by `s`. -/
def movedTable (s : Int) (t : STable K) : STable K := { t with rows := t.rows.map fun r => { r with date := r.date + s } }

/-- The values of the table replaced by values that depend on source (if there are sources) and date. Gaps stay gaps. -/
def valuedTable (u : Option String → Timestamp → K) (t : STable K) : STable K :=
  { t with rows := t.rows.map fun r => { r with y := r.y.map fun _ => u (if t.hasSource then r.source else none) r.date } }

/-- The table with further rows. -/
def extendedTable (t : STable K) (extra : List (SRow K)) : STable K := { t with rows := t.rows ++ extra }

/-- A row that counts: on or after the starting date and, if there are weights, with a positive weight. -/
def RowCounts [Zero K] [LT K] (start : Option Timestamp) (t : STable K) (r : SRow K) : Prop :=
  (∀ d, start = some d → d ≤ r.date) ∧ (t.hasWeight = true → ∃ w, r.weight = some w ∧ 0 < w)

/-- The rows of the series that count and have a value have the value that `v` gives for the number of days since the origin and the date. -/
def FollowsRule [Zero K] [LT K] (start : Option Timestamp) (t : STable K) (s : String) (v : Int → Timestamp → K) : Prop :=
  ∀ r ∈ rowsOf t s, RowCounts start t r → ∀ y, r.y = some y → y = v ((r.date - originOf t s) / (24 * 60 * 60 * 1000000000)) r.date

end Anticipy.Spec
