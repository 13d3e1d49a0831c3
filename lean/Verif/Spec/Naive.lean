import Verif.Model.Core

/-
Specification of naive forecasts: the last observation strictly before a point.
-/
namespace Anticipy.Spec
variable {K : Type} [Field K] [LinearOrder K]

/-- `v` is the last non-null observation of `rows` with x below `x`. -/
def LastBefore (rows : List (Row K)) (x v : K) : Prop :=
  ∃ r ∈ rows, r.y = some v ∧ (r.x : K) < x ∧ ∀ r' ∈ rows, r'.y ≠ none → (r'.x : K) < x → r'.x ≤ r.x

/-- `v` is the first non-null observation of `rows`. -/
def FirstValue (rows : List (Row K)) (v : K) : Prop :=
  ∃ r ∈ rows, r.y = some v ∧ ∀ r' ∈ rows, r'.y ≠ none → r.x ≤ r'.x

end Anticipy.Spec
