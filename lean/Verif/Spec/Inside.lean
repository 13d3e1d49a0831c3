import Verif.Spec.Interval

/-
What it means that a forecast lies inside its prediction intervals.
-/
namespace Anticipy.Spec
variable {K : Type}

/-- The forecast of a row lies in the interval between the columns of two percentiles. -/
def InsideInterval [LE K] (lo hi : K) (r : PRow K) : Prop :=
  ∀ y u v, r.y = some y → (lo, some u) ∈ r.q → (hi, some v) ∈ r.q → u ≤ y ∧ y ≤ v

/-- The number of simulated deviations that are not above the forecast. -/
def countBelow [LE K] [Zero K] [DecidableLE K] (devs : List K) : Nat := devs.countP fun d => decide (d ≤ 0)

/-- The number of simulated deviations that are not below the forecast. -/
def countAbove [LE K] [Zero K] [DecidableLE K] (devs : List K) : Nat := devs.countP fun d => decide (0 ≤ d)

/-- The number of deviations below a percentile: `p` percent of all but one. -/
def shareOf [Field K] (n : Nat) (p : K) : K := ((n - 1 : Nat) : K) * p / 100

/-- The draws of one row are balanced: each of `N` items is drawn equally often in `n` draws. -/
def Balanced (N n : Nat) (draws : List Nat) : Prop :=
  draws.length = n ∧ ∀ k < N, (draws.countP fun d => decide (d % N = k)) * N = n

end Anticipy.Spec
