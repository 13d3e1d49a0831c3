import Verif.Spec.Leverage
import Verif.Spec.Recomputed

/-
A table with other weights (C116).
-/
namespace Anticipy.Spec
variable {K : Type} [Field K] [LinearOrder K]

/-- The table with the weights `W`. -/
def otherWeights (W : SRow K → K) (t : STable K) : STable K := { t with hasWeight := true, rows := t.rows.map fun r => { r with weight := some (W r) } }

/-- One row of a series gets a greater weight; the weights of all other rows of the series stay. -/
structure RaisesWeight (t : STable K) (s : String) (r0 : SRow K) (W : SRow K → K) : Prop where
  row : r0 ∈ rowsOf t s
  positive : 0 < W r0
  greater : rowWeight t r0 < W r0
  rest : ∀ r ∈ rowsOf t s, r ≠ r0 → W r = rowWeight t r

end Anticipy.Spec
