import Verif.Spec.Misfit

/-
Several series over the same samples.
-/
namespace Anticipy.Spec
variable {K : Type} [Field K] [LinearOrder K]

/-- The samples of `df` (same dates, coordinates, weights and missing values) with the value `f x` at coordinate `x`. -/
def valued (f : Int → K) (df : Frame K) : Frame K := { df with rows := df.rows.map fun r => { r with y := r.y.map fun _ => f r.x } }

/-- `p + s * q`. -/
def combined (s : K) (p q : List K) : List K := List.zipWith (fun a b => a + s * b) p q

/-- Predictions are a linear function of the parameters. -/
def LinearPrediction (n : Nat) (val : List K → Int → Timestamp → K) : Prop :=
  ∀ s p q x t, p.length = n → q.length = n → val (combined s p q) x t = val p x t + s * val q x t

end Anticipy.Spec
