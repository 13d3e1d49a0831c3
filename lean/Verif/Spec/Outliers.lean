import Verif.Model.Core
import Mathlib.Algebra.Order.Field.Basic

/-
Vocabulary for the statements on outlier detection.
-/
namespace Anticipy.Spec
variable {K : Type} [Field K]

/-- The table with every value replaced by `a * y + b`. -/
def rescaled (a b : K) (df : Frame K) : Frame K := { df with rows := df.rows.map fun r => { r with y := r.y.map fun v => a * v + b } }

/-- The table with a straight line added: `b * i + c` in row `i`. -/
def tilted (b c : K) (df : Frame K) : Frame K :=
  { df with rows := df.rows.mapIdx fun i r => { r with y := r.y.map fun v => v + (b * (i : K) + c) } }

/-- Position of a row on the axis of the series. -/
def axis (df : Frame K) (r : Row K) : Int := if df.hasDate then r.date else r.x

/-- The jump from row `i - 1` to row `i`. -/
def Jump (df : Frame K) (i : Nat) (d : K) : Prop :=
  ∃ r s u v, df.rows[i]? = some r ∧ 0 < i ∧ df.rows[i - 1]? = some s ∧ r.y = some u ∧ s.y = some v ∧ d = u - v

/-- The series never falls. -/
def NeverFalls [LinearOrder K] (df : Frame K) : Prop := ∀ i d, Jump df i d → 0 ≤ d

end Anticipy.Spec
