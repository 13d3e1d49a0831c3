import Verif.Spec.OnlyCounted

/-
Textbook formula of the weighted regression line. Samples are triples of date, value and weight; weights enter as squares.
-/
namespace Anticipy.Spec
variable {K : Type} [Field K]

/-- Number of the day, counted from `t0`. -/
def dayNumber (t0 t : Timestamp) : K := (((t - t0) / (24 * 60 * 60 * 1000000000) : Int) : K)

/-- Sum of `f` over the samples, with squared weights. -/
def weightedSum (l : List (Timestamp × K × K)) (f : Timestamp → K → K) : K := (l.map fun q => q.2.2 ^ 2 * f q.1 q.2.1).sum

/-- Mean day of the samples. -/
def meanDay (t0 : Timestamp) (l : List (Timestamp × K × K)) : K := weightedSum l (fun t _ => dayNumber t0 t) / weightedSum l fun _ _ => 1

/-- Mean value of the samples. -/
def meanValue (l : List (Timestamp × K × K)) : K := weightedSum l (fun _ y => y) / weightedSum l fun _ _ => 1

/-- Spread of the days. -/
def daySpread (t0 : Timestamp) (l : List (Timestamp × K × K)) : K := weightedSum l fun t _ => (dayNumber t0 t - meanDay t0 l) ^ 2

/-- Covariance of days and values, divided by the spread of the days. -/
def slopeOf (t0 : Timestamp) (l : List (Timestamp × K × K)) : K :=
  weightedSum l (fun t y => (dayNumber t0 t - meanDay t0 l) * (y - meanValue l)) / daySpread t0 l

/-- The regression line. -/
def regressionLine (t0 : Timestamp) (l : List (Timestamp × K × K)) (t : Timestamp) : K :=
  meanValue l + slopeOf t0 l * (dayNumber t0 t - meanDay t0 l)

/-- Between any two samples the values grow by at least `lo` and at most `hi` per day. -/
def GrowsBetween [LE K] (lo hi : K) (t0 : Timestamp) (l : List (Timestamp × K × K)) : Prop :=
  ∀ a ∈ l, ∀ b ∈ l, a.1 ≤ b.1 →
    lo * (dayNumber t0 b.1 - dayNumber t0 a.1) ≤ b.2.1 - a.2.1 ∧ b.2.1 - a.2.1 ≤ hi * (dayNumber t0 b.1 - dayNumber t0 a.1)

/-- The observations of a result as samples. -/
def observedSamples [LinearOrder K] (res : RunResult K) : List (Timestamp × K × K) := (observed res).map fun a => (a.date, a.y.getD 0, a.weight.getD 0)

end Anticipy.Spec
