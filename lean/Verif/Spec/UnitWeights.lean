import Verif.Model.Run

/-
Weights that are all one.
-/
namespace Anticipy.Spec
variable {K : Type} [One K]

/-- The series with a weight column that is one everywhere. -/
def withOnes (df : Frame K) : Frame K := { df with hasWeight := true, rows := df.rows.map fun r => { r with weight := some 1 } }

/-- The table with a weight column that is one everywhere. -/
def tableOnes (t : STable K) : STable K := { t with hasWeight := true, rows := t.rows.map fun r => { r with weight := some 1 } }

omit [One K] in
/-- A result in which the descriptive text of the weights is `wm`; everything else is unchanged. -/
def weightsText (wm : WeightsMeta K) (res : RunResult K) : RunResult K :=
  { res with data := res.data.map fun r => if r.isActuals then { r with long := { r.long with weights := wm } } else r,
             metadata := res.metadata.map fun r => { r with weights := wm } }

end Anticipy.Spec
