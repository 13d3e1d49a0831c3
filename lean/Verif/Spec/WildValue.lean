import Verif.Spec.LoneOutliers
import Verif.Spec.Additive
import Verif.Spec.TableSeries

/-
Series on a straight line with a single wild value (C120).
-/
namespace Anticipy.Spec
variable {K : Type} [Field K]

/-- `i + 1 + j` values on the line with slope `a` that starts at `c`; value number `i` is off by `h`. -/
def lineSpike (a c h : K) (i j : Nat) : List K := (List.range (i + 1 + j)).map fun k : Nat => a * (k : K) + c + if k = i then h else 0

/-- The rows of a series in order of the dates. -/
def inOrder (t : STable K) (s : String) : List (SRow K) := sortBy (fun a b => decide (a.date ≤ b.date)) (rowsOf t s)

/-- The values of a series in order of the dates, none missing. -/
def ValuesAre (t : STable K) (s : String) (l : List K) : Prop := (inOrder t s).map SRow.y = l.map some

/-- The series has one sample on each of `n` days in a row, the first on `d0`. -/
def EveryDay (t : STable K) (s : String) (d0 : Timestamp) (n : Nat) : Prop :=
  (inOrder t s).map SRow.date = (List.range n).map fun k : Nat => d0 + (k : Int) * (24 * 60 * 60 * 1000000000)

end Anticipy.Spec
