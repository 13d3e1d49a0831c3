import Verif.Spec.Expr
import Verif.Model.Run

/-
Longer horizons.
-/
namespace Anticipy.Spec
variable {K : Type}

/-- The value of a model at a sample depends on the coordinate and the date of that sample only. `dated` tells whether dates are passed to the model. -/
def PointByPoint (dated : Bool) (m : ForecastModel K) : Prop :=
  ∀ (p : List K) (mult : Bool), ∃ g : K → Timestamp → Option K, ∀ (ax : List K) (ds : List Timestamp) (act : Option (Frame K)) (a : Arr K),
    ds.length = ax.length → m.fModel { ax := ax, adate := if dated then some ds else none, actuals := act } (some p) mult = .ok a →
    Shaped ax.length a ∧ ∀ (i : Nat) (x : K) (t : Timestamp), ax[i]? = some x → ds[i]? = some t → valueAt a i = g x t

/-- `res'` has the same fits and all rows of values of `res`, in the same order; all other rows of values are predictions later than anything that `res` has for
the same source. -/
structure OnlyAdds (res res' : RunResult K) : Prop where
  fits : res'.metadata = res.metadata
  kept : res.data.Sublist res'.data
  later : ∀ r ∈ res'.data, r ∈ res.data ∨ (r.isActuals = false ∧ ∀ q ∈ res.data, q.source = r.source → q.date < r.date)

/-- All dates are at midnight. -/
def AtMidnight (dates : List Timestamp) : Prop := ∀ t ∈ dates, t % (24 * 60 * 60 * 1000000000) = 0

end Anticipy.Spec
