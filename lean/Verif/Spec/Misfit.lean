import Verif.Spec.Recovery
import Verif.Spec.Fit

/-
Sum of squared errors of arbitrary predictions, as a function of the samples only.
-/
namespace Anticipy.Spec
variable {K : Type} [Field K] [LinearOrder K]

/-- Weighted sum of squared errors; `pred x t` is the prediction for coordinate `x` and date `t`. Samples that share a coordinate share their weight. -/
def misfit (df : Frame K) (pred : Int → Timestamp → K) : K :=
  ((usableRows df).map fun r => ((r.y.getD 0 - pred r.x r.date) * (weightOf df.hasWeight r / (sharing (usableRows df) r : K))) ^ 2).sum

/-- The point half way between two parameter vectors. -/
def halfway (p q : List K) : List K := List.zipWith (fun a b => (a + b) / 2) p q

/-- Predictions are linear in the parameters, or at least: half way between two parameter vectors they are the mean of the two predictions. -/
def Straight (n : Nat) (val : List K → Int → Timestamp → K) : Prop :=
  ∀ p q x t, p.length = n → q.length = n → val (halfway p q) x t = (val p x t + val q x t) / 2

end Anticipy.Spec
