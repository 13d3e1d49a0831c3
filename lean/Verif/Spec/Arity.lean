import Verif.Model.Zoo
import Verif.Model.Holidays

/-
Number of parameters.
-/
namespace Anticipy.Spec
variable {K : Type}

/-- For the given samples, evaluation with another number of parameters than the model has raises an exception. -/
def RejectsOthers (ctx : Ctx K) (m : ForecastModel K) : Prop :=
  ∀ (p : List K) (mult : Bool), p.length ≠ m.nParams → ∃ e, m.fModel ctx (some p) mult = .error e

/-- The models with parameters that are unpacked, over any field. -/
def Unpacks [Field K] [LinearOrder K] [FloorRing K] (a : ForecastModel K) : Prop :=
  a ∈ [modelConstant, modelLinear, modelLinearNondec, modelStep, modelRamp, modelSpike] ∨
    (∃ label d, a = getModelStepDate label d) ∨ (∃ label d d', a = getModelSpikeDate label d d') ∨
    (∃ name f, name ≠ "null" ∧ getModelDummy name f = .ok a) ∨
    (a.name ≠ "null" ∧ ∃ cals name, (∀ c ∈ cals, c.name ≠ "null") ∧ getModelFromCalendars cals name = .ok a) ∨
    (a.name ≠ "null" ∧ ∃ name lists, getModelFromDatelist name lists = .ok a)

end Anticipy.Spec
