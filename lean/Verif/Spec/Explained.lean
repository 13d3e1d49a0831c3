import Verif.Spec.Recomputed
import Verif.Spec.GroupMeans

/-
Explained and unexplained variation of a series (C124).
-/
namespace Anticipy.Spec
variable {K : Type} [Field K] [LinearOrder K]

/-- Variation of the non-null observations with positive weight about their mean; each difference is multiplied with the weight, the squares are added up. -/
def variation (res : RunResult K) : K :=
  ((observed res).map fun a => (a.weight.getD 0 * (a.y.getD 0 - meanOf (observed res))) ^ 2).sum

/-- Variation of predictions `v` for the same dates about the mean of the observations. -/
def explained (res : RunResult K) (v : Timestamp → K) : K :=
  ((observed res).map fun a => (a.weight.getD 0 * (v a.date - meanOf (observed res))) ^ 2).sum

/-- Mean of predictions `v` for the dates of the observations, with the weights of the observations. -/
def meanPrediction (res : RunResult K) (v : Timestamp → K) : K := meanOf ((observed res).map fun a => { a with y := some (v a.date) })

end Anticipy.Spec
