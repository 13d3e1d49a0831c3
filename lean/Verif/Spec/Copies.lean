import Verif.Spec.TableSeries

/-
Any function applied to the values of a series.
-/
namespace Anticipy.Spec
variable {K : Type}

/-- The same sample with the function `f` applied to its value. -/
def sampleTransformed (f : K → K) (r : Row K) : Row K := { r with y := r.y.map f }

/-- The same series with the function `f` applied to all values. -/
def transformed (f : K → K) (df : Frame K) : Frame K := { df with rows := df.rows.map (sampleTransformed f) }

/-- The table with the function `f` applied to all values. -/
def transformedTable (f : K → K) (t : STable K) : STable K := { t with rows := t.rows.map fun r => { r with y := r.y.map f } }

end Anticipy.Spec
