import Verif.Model.Output

/-
Specification for C94: how the tables of a forecast with less output are made from those of a forecast with all output.
-/
namespace Anticipy.Spec
variable {K : Type}

/-- The tables for the chosen model only: the forecast as it is, of the others the rows of the chosen model, and the observations. -/
def chosenOnly (r : RunResult K) : RunResult K :=
  ⟨r.forecast, r.data.filter fun d => d.isActuals || d.isBest, r.metadata.filter fun m => m.isBest⟩

/-- Of a dictionary of tables the forecast. -/
def forecastOnly : Output K → Output K
  | .table f => .table f
  | .dict r => .table r.tables.forecast

/-- What the report of the optimiser says on a model of the metadata table. -/
def reportOf (m : MRow K) : InfoRow K := ⟨m.source, m.long, m.model, m.isFit, m.cost, m.params⟩

/-- The dictionary that belongs to the tables of a run with all fits. -/
def withReport (b : Bool) (r : RunResult K) : FullResult K := ⟨if b then r else chosenOnly r, r.metadata.map reportOf⟩

end Anticipy.Spec
