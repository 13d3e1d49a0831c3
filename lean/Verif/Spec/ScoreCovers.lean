import Verif.Spec.Cache
import Verif.Spec.Fit
import Verif.Model.Fit

/-
Models that have a value for each sample used for the fit (C55).
-/
namespace Anticipy.Spec
variable {K : Type} [Field K] [LinearOrder K]

/-- The model function is called on the coordinates `xs` and the dates `ds`, with the table `actuals` and a cache that was computed for these inputs. -/
structure CalledOn (m : ForecastModel K) (reg : Registry K) (xs : List K) (ds : Option (List Timestamp)) (actuals : Option (Frame K)) (ctx : Ctx K) : Prop where
  x : ctx.ax = xs
  date : ctx.adate = ds
  table : ctx.actuals = actuals
  cache : CacheCorrect reg ctx.ax ctx.adate ctx.cache

/-- With the right number of parameters, or without parameters for a model that has none, the model has a value for each of the `n` samples. -/
def CoversSamples (m : ForecastModel K) (reg : Registry K) (n : Nat) (xs : List K) (ds : Option (List Timestamp)) (actuals : Option (Frame K)) : Prop :=
  ∀ ctx p, CalledOn m reg xs ds actuals ctx → (if m.nParams = 0 then p = none else ∃ q, p = some q ∧ q.length = m.nParams) →
    ∃ a pred, m.fModel ctx p false = .ok a ∧ Predicts n a pred

end Anticipy.Spec
