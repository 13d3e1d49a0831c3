import Verif.Spec.Shape
import Verif.Spec.Leverage
import Verif.Spec.Recovery

/-
Forecasts of trends with bounds (C118).
-/
namespace Anticipy.Spec
variable {K : Type} [Field K] [LinearOrder K]

/-- The solver returns parameters within the bounds. Nothing else is said about their values. -/
def StaysInside (env : Env K) : Prop :=
  ∀ (f : List K → Res (Arr K)) (guess : List (Ext K)) (b : Bounds K) (r : LsqResult K), env.lsq f guess b = .ok (some r) → r.success = true →
    Admissible r.params b

/-- In a run of `source` the candidates have different names, `m` is the one with its name, and solvers return parameters within the bounds. -/
structure FitsInside (w : World K) (args : RunArgs K) (source : String) (df : Frame K) (m : ForecastModel K) : Prop where
  inside : ∀ i, StaysInside (w.env source i)
  names : ∀ df' cand, candidates w.ch args.models df' (runFreq df) = .ok cand → (cand.2.map ForecastModel.name).Nodup
  only : ∀ df' cand, candidates w.ch args.models df' (runFreq df) = .ok cand → ∀ m' ∈ cand.2, m'.name = m.name → m' = m

/-- The forecasts of a model never fall between dates of the same season. -/
def DoesNotFall (res : RunResult K) (name : String) (season : Timestamp → Int) : Prop :=
  ∀ r1 r2, ForecastOf res name r1 → ForecastOf res name r2 → season r1.date = season r2.date → r1.date ≤ r2.date →
    ∃ y1 y2, r1.y = some y1 ∧ r2.y = some y2 ∧ y1 ≤ y2

/-- In each season the forecasts of a model never fall, or never rise. -/
def KeepsDirection (res : RunResult K) (name : String) (season : Timestamp → Int) : Prop :=
  ∀ k : Int, (∀ r1 r2, ForecastOf res name r1 → ForecastOf res name r2 → season r1.date = k → season r2.date = k → r1.date ≤ r2.date →
      ∃ y1 y2, r1.y = some y1 ∧ r2.y = some y2 ∧ y1 ≤ y2) ∨
    ∀ r1 r2, ForecastOf res name r1 → ForecastOf res name r2 → season r1.date = k → season r2.date = k → r1.date ≤ r2.date →
      ∃ y1 y2, r1.y = some y1 ∧ r2.y = some y2 ∧ y2 ≤ y1

/-- The forecasts of a model stay on one side of the level `d` and come closer to it. -/
def Approaches (res : RunResult K) (name : String) (d : K) : Prop :=
  ((∀ r, ForecastOf res name r → ∃ y, r.y = some y ∧ d ≤ y) ∧
    ∀ r1 r2, ForecastOf res name r1 → ForecastOf res name r2 → r1.date ≤ r2.date → ∃ y1 y2, r1.y = some y1 ∧ r2.y = some y2 ∧ y2 ≤ y1) ∨
  ((∀ r, ForecastOf res name r → ∃ y, r.y = some y ∧ y ≤ d) ∧
    ∀ r1 r2, ForecastOf res name r1 → ForecastOf res name r2 → r1.date ≤ r2.date → ∃ y1 y2, r1.y = some y1 ∧ r2.y = some y2 ∧ y1 ≤ y2)

/-- The samples that count never rise. -/
def NeverRise (start : Option Timestamp) (t : STable K) (s : String) : Prop :=
  ∀ r1 ∈ counted start t s, ∀ r2 ∈ counted start t s, r1.date ≤ r2.date → r2.y.getD 0 ≤ r1.y.getD 0

/-- Mean of the samples that count, each with the square of its weight. -/
def countedMean (start : Option Timestamp) (t : STable K) (s : String) : K :=
  ((counted start t s).map fun r => rowWeight t r ^ 2 * r.y.getD 0).sum / ((counted start t s).map fun r => rowWeight t r ^ 2).sum

end Anticipy.Spec
