import Verif.Spec.TableSeries

/-
Tables whose values are multiplied by a number, with something added that is known for every date (C130).
-/
namespace Anticipy.Spec
variable {K : Type}

/-- All values of the table times `c`, plus what `u` gives for the source (if there are sources) and the date. Gaps stay gaps. -/
def plusTable [Add K] [Mul K] (c : K) (u : Option String → Timestamp → K) (t : STable K) : STable K :=
  { t with rows := t.rows.map fun r => { r with y := r.y.map fun v => c * v + u (if t.hasSource then r.source else none) r.date } }

end Anticipy.Spec
