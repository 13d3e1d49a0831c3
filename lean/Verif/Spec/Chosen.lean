import Verif.Spec.Run

/-
Runs in which a single model is offered.
-/
namespace Anticipy.Spec
variable {K : Type}

/-- The arguments of a run that offers a single model: `l_model_trend=[m]`, no seasonality, no naive models, no calendar models. -/
def offering (args : RunArgs K) (m : ForecastModel K) (mode : AddMult) : RunArgs K :=
  { args with models := ⟨some [m], some [], mode, none, none, some [], none⟩ }

end Anticipy.Spec
