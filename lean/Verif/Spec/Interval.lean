import Verif.Model.Interval

/-
What users of `get_pi` expect, without reference to how intervals are computed.
-/
namespace Anticipy.Spec
variable {K : Type}

/-- Is this a forecast row of the selected model? -/
def IsForecast (t : FTable K) (r : FRow K) : Bool := !r.isActuals && (!t.hasBest || r.isBest)

/-- Rows that the table with intervals must show: actual samples with a value, and forecast rows of the selected model. -/
def shown (t : FTable K) : List (FRow K) := t.rows.filter fun r => (r.isActuals && r.y.isSome) || IsForecast t r

/-- The content of a row apart from intervals. -/
def content (r : FRow K) : PRow K := ⟨r.date, r.source, r.model, r.isActuals, r.y, []⟩

/-- Result row without intervals. -/
def plain (r : PRow K) : PRow K := { r with q := [] }

/-- Quantile columns increase with their percentile. -/
def Ordered [LE K] (r : PRow K) : Prop :=
  ∀ a ∈ r.q, ∀ b ∈ r.q, a.1 ≤ b.1 → ∀ u v, a.2 = some u → b.2 = some v → u ≤ v

/-- Is the actual row used for residuals: it has a value and is not excluded by its weight. -/
def Used [Zero K] [LT K] [DecidableLT K] (t : FTable K) (r : FRow K) : Bool :=
  r.isActuals && r.y.isSome && (!t.hasWeight || match r.weight with | some w => decide (0 < w) | none => false)

/-- Some forecast row and some used actual row have the same date (and source): the fit can be compared with the data. -/
def Overlap [Zero K] [LT K] [DecidableLT K] (t : FTable K) : Prop :=
  ∃ f ∈ t.rows, ∃ a ∈ t.rows, IsForecast t f = true ∧ f.y ≠ none ∧ Used t a = true ∧ a.date = f.date ∧ a.source = f.source

/-- Actual minus forecast for every forecast row that has a value and every used actual row of the same date. -/
def residualsOf [Zero K] [LT K] [DecidableLT K] [Sub K] (t : FTable K) : List K :=
  (t.rows.filter (IsForecast t)).flatMap fun f =>
    (t.rows.filter (Used t)).filterMap fun a =>
      match f.y, a.y with
      | some u, some v => if a.date = f.date then some (v - u) else none
      | _, _ => none

/-- Arithmetic mean. -/
def average [Add K] [Zero K] [Div K] [NatCast K] (l : List K) : K := l.sum / ((l.length : Nat) : K)

end Anticipy.Spec
