import Verif.Spec.Expr
import Verif.Spec.Run
import Verif.Model.Fit

/-
What an exact least squares solver does, and series that lie on a straight line.
-/
namespace Anticipy.Spec
variable {K : Type} [Field K] [LinearOrder K]

/-- The parameter vector has one value per bound and lies between the bounds. -/
def Admissible (p : List K) (b : Bounds K) : Prop := WithinBounds p.length (p.map Ext.fin) b

/-- Sum of the squared residuals. -/
def sumSq (l : List K) : K := (l.map fun e => e ^ 2).sum

/-- The least squares solver returns a global minimum: if it reports success, the parameters are admissible, the residuals are defined there, the
reported cost is half the sum of their squares, and no other admissible parameters with defined residuals have a smaller sum of squares. -/
def FindsMinimum (env : Env K) : Prop :=
  ∀ f guess b r, env.lsq f guess b = .ok (some r) → r.success = true →
    Admissible r.params b ∧ ∃ l, f r.params = .ok (vecOf l) ∧ r.cost = some (sumSq l / 2) ∧
      ∀ p l', Admissible p b → f p = .ok (vecOf l') → sumSq l ≤ sumSq l'

/-- Samples with a value and positive weight lie on the line `a * x + b`. -/
def OnLine (df : Frame K) (a b : K) : Prop :=
  ∀ r ∈ df.rows, (∃ w, givenWeight df r = some w ∧ 0 < w) → ∀ v, r.y = some v → v = a * (r.x : K) + b

/-- Samples with a value and positive weight lie on the line `a * x + b` plus a contribution of the day of the week; `wd` is the weekday of a day number. -/
def OnWeeklyPattern (wd : Int → Int) (df : Frame K) (a b : K) (s : Int → K) : Prop :=
  ∀ r ∈ df.rows, (∃ w, givenWeight df r = some w ∧ 0 < w) → ∀ v, r.y = some v →
    v = a * (r.x : K) + b + s (wd (r.date / (24 * 60 * 60 * 1000000000)))

/-- The coordinate x counts the days from `t0` on. -/
def CountsDays (df : Frame K) (t0 : Timestamp) : Prop := ∀ r ∈ df.rows, r.date = t0 + r.x * (24 * 60 * 60 * 1000000000)

end Anticipy.Spec
