import Verif.Spec.Ignored

/-
Reported weights given back as weights of the input (C119).
-/
namespace Anticipy.Spec
variable {K : Type}

/-- The series with other weights: `u t` is the weight of the sample at `t`. -/
def givenFrame (u : Int → Option K) (df : Frame K) : Frame K :=
  { df with hasWeight := true, rows := df.rows.map fun r => { r with weight := u (place df.hasDate r) } }

/-- The table with other weights: `u s t` is the weight of series `s` at `t` (`none` stands for the only series of a table without sources). -/
def givenTable (u : Option String → Timestamp → Option K) (t : STable K) : STable K :=
  { t with hasWeight := true, rows := t.rows.map fun r => { r with weight := u (if t.hasSource then r.source else none) r.date } }

/-- The observations of the result are reported with the weights `u`. -/
def ReportsWeights (u : Int → Option K) (res : RunResult K) : Prop := ∀ r ∈ res.data, r.isActuals = true → r.weight = u r.date

end Anticipy.Spec
