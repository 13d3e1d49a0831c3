import Verif.Spec.Run

/-
Runs with more candidate models.
-/
namespace Anticipy.Spec
variable {K : Type}

/-- The same fit, apart from the mark of the best one. -/
def SameFit (r r' : MRow K) : Prop := { r' with isBest := r.isBest } = r

/-- The same row of values, apart from the mark of the best fit. -/
def SameValue (r r' : DRow K) : Prop := { r' with isBest := r.isBest } = r

/-- All fits and all rows of values of `res` are found in `res'`. -/
structure FoundIn (res res' : RunResult K) : Prop where
  fits : ∀ r ∈ res.metadata, ∃ r' ∈ res'.metadata, SameFit r r'
  values : ∀ r ∈ res.data, ∃ r' ∈ res'.data, SameValue r r'

end Anticipy.Spec
