import Verif.Spec.Coverage

/-
Intervals of the same shape at several dates.
-/
namespace Anticipy.Spec
variable {K : Type}

/-- In two rows the columns of each percentile have the same distance from the forecast. -/
def SameShape [Sub K] (r r' : PRow K) : Prop :=
  ∀ y y', r.y = some y → r'.y = some y' → ∀ c a a', (c, some a) ∈ r.q → (c, some a') ∈ r'.q → a - y = a' - y'

/-- The draws for `count` rows are the same for all rows, apart from their order: each of the `N` items is drawn as often for one row as for another. -/
def SameDraws (N n count : Nat) (draws : Nat → Nat) : Prop :=
  ∀ j < count, ∀ j' < count, ((List.range n).map fun i => draws (i * count + j) % N).Perm ((List.range n).map fun i => draws (i * count + j') % N)

end Anticipy.Spec
