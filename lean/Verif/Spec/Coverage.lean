import Verif.Spec.Inside
import Verif.Spec.Widening
import Verif.Spec.Balance

/-
How many observations lie inside the intervals of their forecasts.
-/
namespace Anticipy.Spec
variable {K : Type}

/-- The observation of a date lies in the interval between the columns of two percentiles. -/
def Encloses [LE K] (lo hi : K) (r : PRow K) (v : K) : Prop :=
  ∃ a b, (lo, some a) ∈ r.q ∧ (hi, some b) ∈ r.q ∧ a ≤ v ∧ v ≤ b

/-- Number of residuals within two bounds. -/
def countWithin [LE K] [DecidableLE K] (L U : K) (l : List K) : Nat := l.countP fun d => decide (L ≤ d) && decide (d ≤ U)

/-- The draws for `count` rows reproduce the distribution of `N` items: for each row each item is drawn equally often in `n` draws. -/
def Reproduces (N n count : Nat) (draws : Nat → Nat) : Prop :=
  ∀ j < count, Balanced N n ((List.range n).map fun i => draws (i * count + j))

/-- The table of values of a series without weights or outliers, with one observation per date, in which the model `name` is chosen and has exactly one
forecast for each observation. -/
structure PlainFit [One K] (res : RunResult K) (name : String) : Prop where
  onePerDate : ((res.data.filter DRow.isActuals).map DRow.date).Nodup
  unweighted : ∀ a ∈ res.data, a.isActuals = true → a.weight = some 1
  chosen : ∀ r ∈ res.data, r.isActuals = false → r.isBest = true → r.model = name
  covered : ∀ a ∈ res.data, a.isActuals = true → a.y ≠ none → (res.data.countP fun r => !r.isActuals && r.isBest && decide (r.date = a.date)) = 1

end Anticipy.Spec
