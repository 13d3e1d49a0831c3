import Verif.Model.PlotBands
import Verif.Model.Run

/-
What the filled areas of a plot show (C112).
-/
namespace Anticipy.Spec
variable {K : Type} [Field K] [LinearOrder K]

/-- The area has one point for each of the rows, in their order, with the date of the row and the two quantiles of the row. -/
def ShowsQuantiles (b : Band K) (rows : List (PRow K)) : Prop :=
  List.Forall₂ (fun pt r => pt.1 = r.date ∧ ∃ lo hi, pt.2 = (some lo, some hi) ∧ ((b.low : K), some lo) ∈ r.q ∧ ((b.high : K), some hi) ∈ r.q) b.points rows

/-- The line shows these rows, in their order. -/
def ShowsLine (line : List (PlotRow K)) (rows : List (PRow K)) : Prop := List.Forall₂ (fun (p : PlotRow K) r => p.date = r.date ∧ p.y = r.y) line rows

/-- The inner area lies within the outer area at every point, and both have an extent of at least 0. -/
def Within (inner outer : Band K) : Prop :=
  List.Forall₂ (fun a b => a.1 = b.1 ∧ ∃ l l' u' u, a.2 = (some l', some u') ∧ b.2 = (some l, some u) ∧ l ≤ l' ∧ l' ≤ u' ∧ u' ≤ u) inner.points outer.points

end Anticipy.Spec
