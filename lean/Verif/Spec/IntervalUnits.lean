import Verif.Model.Interval

/-
Forecast tables in another unit, with the values of each date moved by some amount.
-/
namespace Anticipy.Spec
variable {K : Type} [Add K] [Mul K]

/-- Every value `y` of a date `t` becomes `c * y + g t`, for actuals and forecasts alike. -/
def valuesMoved (c : K) (g : Timestamp → K) (t : FTable K) : FTable K :=
  { t with rows := t.rows.map fun r => { r with y := r.y.map fun v => c * v + g r.date } }

/-- The same for a table with quantile columns; each column follows. -/
def intervalMoved (c : K) (g : Timestamp → K) (r : PRow K) : PRow K :=
  { r with y := r.y.map fun v => c * v + g r.date, q := r.q.map fun e => (e.1, e.2.map fun v => c * v + g r.date) }

/-- Value in the quantile column of percentile `p`. -/
def quantile [DecidableEq K] (r : PRow K) (p : K) : Option K := (r.q.find? fun e => decide (e.1 = p)).bind Prod.snd

/-- The same when the order of the values is reversed: the column of percentile `p` comes from the column of percentile `100 - p`. -/
def intervalMirrored [DecidableEq K] [Sub K] [OfNat K 100] (c : K) (g : Timestamp → K) (r : PRow K) : PRow K :=
  { r with y := r.y.map fun v => c * v + g r.date, q := r.q.map fun e => (e.1, (quantile r (100 - e.1)).map fun v => c * v + g r.date) }

end Anticipy.Spec
