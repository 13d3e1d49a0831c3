import Verif.Spec.TableSeries
import Verif.Spec.Additive

/-
How fitted values move when observations are revised.
-/
namespace Anticipy.Spec
variable {K : Type}

/-- The table with revised values: the row `r` has the value `Y r`. Gaps stay gaps. -/
def revised (Y : SRow K → K) (t : STable K) : STable K := { t with rows := t.rows.map fun r => { r with y := r.y.map fun _ => Y r } }

section
variable [Field K] [LinearOrder K]

/-- Weight of a row; 1 if the table has no weights. -/
def rowWeight (t : STable K) (r : SRow K) : K := if t.hasWeight then r.weight.getD 0 else 1

/-- The rows of a series from the starting date on that have a value and a positive weight. -/
def counted (start : Option Timestamp) (t : STable K) (s : String) : List (SRow K) :=
  (rowsOf t s).filter fun r => (match start with | some d => decide (d ≤ r.date) | none => true) && r.y.isSome && decide (0 < rowWeight t r)

/-- Sum of the squares of `g` over the rows that count, each with the square of its weight. -/
def squares (start : Option Timestamp) (t : STable K) (s : String) (g : SRow K → K) : K :=
  ((counted start t s).map fun r => rowWeight t r ^ 2 * g r ^ 2).sum

end
end Anticipy.Spec
