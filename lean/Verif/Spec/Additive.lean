import Verif.Spec.Balance
import Verif.Spec.Recovery
import Verif.Spec.Cache
import Verif.Model.Zoo

/-
Models that add up features: each parameter is the coefficient of a fixed function of the coordinate and the date.
-/
namespace Anticipy.Spec
variable {K : Type} [Field K] [LinearOrder K]

/-- A quantity that is known for every coordinate and date. -/
abbrev Feature (K : Type) := Int → Timestamp → K

/-- Each parameter times its feature, added up. -/
def combination (feats : List (Feature K)) (p : List K) (x : Int) (t : Timestamp) : K :=
  (List.zipWith (fun c φ => c * φ x t) p feats).sum

/-- A straight line: the coordinate and the constant 1. -/
def lineFeatures : List (Feature K) := [fun x _ => (x : K), fun _ _ => 1]
/-- A level. -/
def levelFeatures : List (Feature K) := [fun _ _ => 1]
/-- A feature that depends on the date only. -/
def flagFeature (flag : Timestamp → K) : List (Feature K) := [fun _ t => flag t]
/-- One flag for each of the indices 1 to `n`. -/
def indexFeatures (idx : Timestamp → Int) (n : Nat) : List (Feature K) :=
  (List.range n).map fun (i : Nat) _ t => if idx t = (i : Int) + 1 then 1 else 0

/-- The features can be combined to the constant 1. -/
def HasLevel (feats : List (Feature K)) : Prop := ∃ u : List K, u.length = feats.length ∧ ∀ x t, combination feats u x t = 1

/-- The samples tell all combinations apart: two that agree at every observation of the result with a value and positive weight are the same. `t0` is
the date with coordinate 0; coordinates count days. -/
def Identifies (feats : List (Feature K)) (t0 : Timestamp) (obs : List (DRow K)) : Prop :=
  ∀ p q : List K, p.length = feats.length → q.length = feats.length →
    (∀ r ∈ obs, combination feats p ((r.date - t0) / (24 * 60 * 60 * 1000000000)) r.date =
      combination feats q ((r.date - t0) / (24 * 60 * 60 * 1000000000)) r.date) →
    ∀ x t, combination feats p x t = combination feats q x t

/-- The value of the model is the combination of the features, and any coefficients are allowed. (A calendar raises for an empty list of dates.) -/
structure AddsUp (m : ForecastModel K) (reg : Registry K) (feats : List (Feature K)) : Prop where
  count : feats.length = m.nParams
  named : m.name ≠ "null" ∧ m.name ≠ "logistic" ∧ m.name ≠ "sigmoid"
  bounds : ∀ args, ∃ a, m.fBounds args = .ok ⟨List.replicate m.nParams .ninf, List.replicate m.nParams .pinf, a⟩
  value : ∀ (ctx : Ctx K) (xs : List Int) (ds : List Timestamp) p, ctx.ax = (xs.map fun x : Int => (x : K)) → ctx.adate = some ds → xs.length = ds.length →
    p.length = m.nParams → CacheCorrect reg ctx.ax ctx.adate ctx.cache → xs ≠ [] → m.fModel ctx (some p) false = .ok (vecOf (List.zipWith (combination feats p) xs ds))

/-- In a run of `source` the solver finds minima, no other candidate has the name of `m`, and cached quantities of `m` are those of `reg`. -/
structure FitsExactly (w : World K) (args : RunArgs K) (source : String) (df : Frame K) (m : ForecastModel K) (reg : Registry K) : Prop where
  minimum : ∀ i, FindsMinimum (w.env source i)
  only : ∀ df' cand, candidates w.ch args.models df' (runFreq df) = .ok cand → ∀ m' ∈ cand.2, m'.name = m.name → m' = m
  registered : ∀ i, Registered (w.env source i).globalCache reg m

/-- `r` is a forecast of the model with this name. -/
def ForecastOf (res : RunResult K) (name : String) (r : DRow K) : Prop := r ∈ res.data ∧ r.isActuals = false ∧ r.model = name

/-- The features have the same value a time `s` later. -/
def Periodic (feats : List (Feature K)) (s : Int) : Prop := ∀ φ ∈ feats, ∀ x t, φ x (t + s) = φ x t

end Anticipy.Spec
