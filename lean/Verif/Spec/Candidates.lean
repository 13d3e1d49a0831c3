import Verif.Model.Candidates

/-
Candidate models and data requirements as users understand them.
-/
namespace Anticipy.Spec

/-- The dates stretch over more than `d` (nanoseconds). -/
def Spans (dates : List Timestamp) (d : ℚ) : Prop := ∃ a ∈ dates, ∃ b ∈ dates, d < ((b - a : Int) : ℚ)

/-- Two different dates are at most `d` apart. -/
def Close (dates : List Timestamp) (d : Int) : Prop := ∃ a ∈ dates, ∃ b ∈ dates, a < b ∧ b - a ≤ d

variable {K : Type} [Field K]

/-- A requested combination of a trend and a seasonality model. -/
def Combination (mode : AddMult) (t s : List (ForecastModel K)) (m : ForecastModel K) : Prop :=
  ∃ a ∈ t, ∃ b ∈ s, (mode ≠ .mult ∧ m = a.add b) ∨ (mode ≠ .add ∧ m = a.mul b)

/-- Names identify the models with property `P`. -/
def Unambiguous (P : ForecastModel K → Prop) : Prop := ∀ m m', P m → P m' → m.name = m'.name → m = m'

/-- A sample that counts: it has a value and its weight (if weights are given) is positive. -/
def Counts [LinearOrder K] (df : Frame K) (r : Row K) : Prop := r.y ≠ none ∧ (df.hasWeight = true → ∃ w, r.weight = some w ∧ 0 < w)

end Anticipy.Spec
