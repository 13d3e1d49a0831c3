import Verif.Spec.Fit
import Verif.Spec.Calendar
import Mathlib.Analysis.Real.Sqrt

/-
Vocabulary for the multiplicative test: least squares lines, mean and sample variance of the samples of a month.
-/
namespace Anticipy.Spec

/-- Weighted squared error of the line `a * x + b` on observations (x, y, weight). -/
noncomputable def lineError (obs : List (ℝ × ℝ × ℝ)) (a b : ℝ) : ℝ := (obs.map fun o => (o.2.2 * (a * o.1 + b - o.2.1)) ^ 2).sum

/-- No other line has a smaller error. -/
def LeastSquares (obs : List (ℝ × ℝ × ℝ)) (a b : ℝ) : Prop := ∀ a' b', lineError obs a b ≤ lineError obs a' b'

/-- The samples that count, with the weight divided by the number of samples at the same x. -/
noncomputable def observations (df : Frame ℝ) : List (ℝ × ℝ × ℝ) :=
  (usableRows df).map fun r => ((r.x : ℝ), r.y.getD 0, weightOf df.hasWeight r / (sharing (usableRows df) r : ℝ))

/-- The linear fit returns the line `a * x + b`, and this is the least squares line. -/
def FitsLine (env : Env ℝ) (df : Frame ℝ) (a b : ℝ) : Prop :=
  (∃ r, fitModel env modelLinear df none true = .ok r ∧ r.params = [a, b]) ∧ LeastSquares (observations df) a b

/-- Multiply all values by `c`. -/
def scaleY (c : ℝ) (df : Frame ℝ) : Frame ℝ := { df with rows := df.rows.map fun r => { r with y := r.y.map fun v => c * v } }

/-- Values with their x in the civil month `(y, m)`. -/
def inMonth (civil : Int → Int × Int × Int) (df : Frame ℝ) (y m : Int) : List (Int × ℝ) :=
  df.rows.filterMap fun r => if (civil (r.date / dayNs)).1 = y ∧ (civil (r.date / dayNs)).2.1 = m then r.y.map fun v => (r.x, v) else none

noncomputable def avg (l : List ℝ) : ℝ := l.sum / (l.length : ℝ)
noncomputable def sampleVar (l : List ℝ) : ℝ := (l.map fun v => (v - avg l) ^ 2).sum / ((l.length : ℝ) - 1)

/-- Sum of products of deviations from the averages. -/
noncomputable def codeviation (l : List (ℝ × ℝ)) : ℝ := (l.map fun p => (p.1 - avg (l.map Prod.fst)) * (p.2 - avg (l.map Prod.snd))).sum
noncomputable def deviation (l : List ℝ) : ℝ := (l.map fun v => (v - avg l) ^ 2).sum

open Classical in
/-- Correlation coefficient, none if one of the two quantities does not vary. -/
noncomputable def correlation (l : List (ℝ × ℝ)) : Option ℝ :=
  if deviation (l.map Prod.fst) = 0 ∨ deviation (l.map Prod.snd) = 0 then none
  else some (codeviation l / (Real.sqrt (deviation (l.map Prod.fst)) * Real.sqrt (deviation (l.map Prod.snd))))

/-- Average of the values of a month, and variance of their distance from the line `a * x + b`. -/
noncomputable def monthPoint (civil : Int → Int × Int × Int) (df : Frame ℝ) (a b : ℝ) (p : Int × Int) : ℝ × ℝ :=
  (avg ((inMonth civil df p.1 p.2).map Prod.snd), sampleVar ((inMonth civil df p.1 p.2).map fun o => o.2 - (a * (o.1 : ℝ) + b)))

/-- The series may be considered for multiplicative composition at all: positive values, dates over 60 days or more, four samples that count. -/
def Eligible (df : Frame ℝ) : Prop :=
  (∀ r ∈ df.rows, ∀ v, r.y = some v → 0 < v) ∧ df.hasDate = true ∧ (∃ r ∈ df.rows, ∃ q ∈ df.rows, 60 * dayNs ≤ q.date - r.date) ∧
  4 ≤ (usableRows df).length

end Anticipy.Spec
