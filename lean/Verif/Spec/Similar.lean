import Verif.Spec.Misfit

/-
The same series with other weights or other dates.
-/
namespace Anticipy.Spec
variable {K : Type} [Field K] [LinearOrder K]

/-- All weights multiplied by `k`. -/
def reweighted (k : K) (df : Frame K) : Frame K := { df with rows := df.rows.map fun r => { r with weight := r.weight.map fun w => k * w } }

/-- All dates moved by `s`. -/
def moved (s : Int) (df : Frame K) : Frame K := { df with rows := df.rows.map fun r => { r with date := r.date + s } }

/-- Two sets of samples over the same coordinates, the dates of the second moved by `s`, for which predictions `c * a + d` are as good as predictions `a`
for the first, up to a common factor. -/
structure Similar (s : Int) (c d : K) (u u' : Frame K) : Prop where
  dated : u'.hasDate = u.hasDate
  xs : (usableRows u').map Row.x = (usableRows u).map Row.x
  dates : (usableRows u').map Row.date = (usableRows u).map fun r => r.date + s
  misfits : ∃ k, 0 ≤ k ∧ ∀ a a' : Int → Timestamp → K, (∀ x t, a' x (t + s) = c * a x t + d) → misfit u' a' = k * misfit u a

end Anticipy.Spec
