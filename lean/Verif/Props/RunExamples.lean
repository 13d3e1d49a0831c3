import Verif.Props.Start
import Verif.Props.Sources

/-
Concrete runs: cases that meet the hypotheses of C35, C40, C43, C47-C49, and counterexamples.
-/
namespace Anticipy
open Spec

/-- A toy optimizer: it returns the initial guess with its cost; the score is the cost plus the number of parameters. -/
def demoEnv : Env ℚ :=
  { lsq := fun f guess _ =>
      let p := guess.map fun e => match e with | .fin a => a | _ => 0
      (f p).map fun r => some ⟨true, some (halfSumSq r), p⟩
    rnd := fun _ => 0
    aic := fun c _ k => .ok (match c with | some v => .fin (v + (k : ℚ)) | none => .nan)
    globalCache := fun _ => none
    label := fun _ => "" }

def demoWorld : World ℚ :=
  { env := fun _ _ => demoEnv
    ch := ⟨[modelNull], [modelNull], modelSnaiveWday stableSort, modelNaive stableSort, fun _ => .ok none, fun l => l⟩
    srt := stableSort
    draw := fun _ k i j => k + i + j }

/-- Candidates: the trend models and naive models given, nothing else; forecast of three days. -/
def demoArgs (trend : List (ForecastModel ℚ)) (naive : Option (List (ForecastModel ℚ))) : RunArgs ℚ :=
  { models := ⟨some trend, some [], .add, none, none, naive, none⟩
    start := none, years := 3 / 365, includeAll := true, findOutliers := false, nCum := some 1, q1 := 5, q2 := 20, widening := .D, useCache := false }

/-- Six days, almost on a line. -/
def demoFrame : Frame ℚ := ⟨true, false, [⟨0, 0, some 1, none⟩, ⟨DAY, 1, some 3, none⟩, ⟨2 * DAY, 2, some 4, none⟩, ⟨3 * DAY, 3, some 7, none⟩,
  ⟨4 * DAY, 4, some 9, none⟩, ⟨5 * DAY, 5, some 11, none⟩]⟩

/-- Linear, constant and naive candidates: the linear trend wins, the table has six samples and nine forecast rows, the first and last with values
1 and 17; the median column of the row after the last sample is its value plus a deviation. -/
example : ((runSingle demoWorld (demoArgs [modelLinear, modelConstant] (some [modelNaive stableSort])) "s" demoFrame).toOption.map fun r =>
    (r.forecast.length, (r.metadata.filter MRow.isBest).map MRow.model, (r.data.filter DRow.isBest).map fun q => (q.date / DAY, q.y))) =
    some (15, ["linear"], [(0, some 1), (1, some 3), (2, some 5), (3, some 7), (4, some 9), (5, some 11), (6, some 13), (7, some 15), (8, some 17)]) := by
  decide +kernel

/-- The last sample is excluded: its weight is zero. -/
def demoWeighted : Frame ℚ := ⟨true, true, [⟨0, 0, some 1, some 1⟩, ⟨DAY, 1, some 3, some 1⟩, ⟨2 * DAY, 2, some 4, some 2⟩, ⟨3 * DAY, 3, some 7, some 1⟩,
  ⟨4 * DAY, 4, some 9, some 1⟩, ⟨5 * DAY, 5, some 100, some 0⟩]⟩

example : ((runSingle demoWorld (demoArgs [modelLinear] (some [])) "s" demoWeighted).toOption.map fun r =>
    (r.data.filter DRow.isActuals).map fun q => (q.date / DAY, q.y, q.weight)) =
    some [(0, some 1, some 1), (1, some 3, some 1), (2, some 4, some 2), (3, some 7, some 1), (4, some 9, some 1), (5, some 100, some 0)] := by
  decide +kernel

/-- A spike on day 3 gets weight zero. -/
def demoSpike : Frame ℚ := ⟨true, false, [⟨0, 0, some 1, none⟩, ⟨DAY, 1, some 2, none⟩, ⟨2 * DAY, 2, some 1, none⟩, ⟨3 * DAY, 3, some 90, none⟩,
  ⟨4 * DAY, 4, some 1, none⟩, ⟨5 * DAY, 5, some 2, none⟩, ⟨6 * DAY, 6, some 1, none⟩, ⟨7 * DAY, 7, some 2, none⟩]⟩

example : ((runSingle demoWorld { demoArgs [modelConstant] (some []) with findOutliers := true } "s" demoSpike).toOption.map fun r =>
    (r.data.filter DRow.isActuals).map fun q => (q.date / DAY, q.weight)) =
    some [(0, some 1), (1, some 1), (2, some 1), (3, some 0), (4, some 1), (5, some 1), (6, some 1), (7, some 1)] := by
  decide +kernel

/-- Two sources, interleaved. -/
def demoTable : STable ℚ := ⟨true, true, false, false, [⟨4 * DAY, some "b", 0, some 5, none⟩, ⟨4 * DAY, some "a", 0, some 1, none⟩,
  ⟨5 * DAY, some "a", 0, some 3, none⟩, ⟨5 * DAY, some "b", 0, some 5, none⟩, ⟨6 * DAY, some "b", 0, some 5, none⟩, ⟨6 * DAY, some "a", 0, some 5, none⟩,
  ⟨7 * DAY, some "a", 0, some 7, none⟩, ⟨7 * DAY, some "b", 0, some 6, none⟩]⟩

example : ((runForecast demoWorld (demoArgs [modelLinear, modelConstant] (some [])) "" demoTable).toOption.map fun o => o.map fun r =>
    (r.metadata.filter MRow.isBest).map fun q => (q.source, q.model)) = some (some [("a", "linear"), ("b", "constant")]) := by
  decide +kernel

/-- Different early values, same result (an instance of `C49_values_partial`). -/
example : SameFrom (2 * DAY) demoFrame ⟨true, false, [⟨0, 0, some 1000, some 3⟩, ⟨DAY, 1, none, none⟩, ⟨2 * DAY, 2, some 4, none⟩,
    ⟨3 * DAY, 3, some 7, none⟩, ⟨4 * DAY, 4, some 9, none⟩, ⟨5 * DAY, 5, some 11, none⟩]⟩ := by
  refine ⟨rfl, rfl, ?_⟩
  simp [demoFrame, DAY, HOUR]

example : ∀ r ∈ demoFrame.rows, ∀ s ∈ demoFrame.rows, r.date < 2 * DAY → 2 * DAY ≤ s.date → r.x ≠ s.x := by decide +kernel

/-! ### Counterexamples -/

/-- Hourly samples on the first day, daily samples afterwards. -/
def demoHourly : Frame ℚ := ⟨true, false, [⟨0, 0, some 1, none⟩, ⟨HOUR, 0, some 3, none⟩, ⟨2 * HOUR, 0, some 4, none⟩, ⟨3 * HOUR, 0, some 4, none⟩,
  ⟨DAY, 1, some 7, none⟩, ⟨2 * DAY, 2, some 9, none⟩, ⟨3 * DAY, 3, some 11, none⟩]⟩

/-- **C49 refuted for removal**: the frequency is detected from all dates, so samples before the starting date decide whether the forecast is hourly
or daily. -/
theorem C49_counterexample : let args := { demoArgs [] (some [modelNaive stableSort]) with start := some DAY }
    let daily : Frame ℚ := { demoHourly with rows := kept (some DAY) demoHourly }
    ∃ d d', runFits demoWorld args "s" demoHourly = .ok d ∧ runFits demoWorld args "s" daily = .ok d' ∧
      (d.1.filter fun r => !r.isActuals).length = 121 ∧ (d'.1.filter fun r => !r.isActuals).length = 6 := by
  intro args daily
  have h1 : (runFits demoWorld args "s" demoHourly).toOption.map (fun d => (d.1.filter fun r => !r.isActuals).length) = some 121 := by decide +kernel
  have h2 : (runFits demoWorld args "s" daily).toOption.map (fun d => (d.1.filter fun r => !r.isActuals).length) = some 6 := by decide +kernel
  cases e1 : runFits demoWorld args "s" demoHourly with
  | error e => rw [e1] at h1; cases h1
  | ok d =>
    cases e2 : runFits demoWorld args "s" daily with
    | error e => rw [e2] at h2; cases h2
    | ok d' =>
      rw [e1] at h1
      rw [e2] at h2
      exact ⟨d, d', rfl, rfl, Option.some.inj h1, Option.some.inj h2⟩

/-- **C55 refuted**: six daily samples on a line with a small error, default naive model. The seasonal naive model predicts none of the samples,
so its cost is 0, it is reported as the best fit, and the forecast table of the run has no forecast at all. -/
theorem C55_counterexample : ∃ res, runSingle demoWorld (demoArgs [modelLinear] none) "s" demoFrame = .ok res ∧
    res.metadata.map (fun m => (m.model, m.cost, m.isBest)) = [("linear", some (1 / 2), false), ("snaive_wday", some 0, true)] ∧
    res.forecast.map PRow.isActuals = [true, true, true, true, true, true] := by
  have h : (runSingle demoWorld (demoArgs [modelLinear] none) "s" demoFrame).toOption.map (fun res =>
    (res.metadata.map (fun m => (m.model, m.cost, m.isBest)), res.forecast.map PRow.isActuals)) =
    some ([("linear", some (1 / 2), false), ("snaive_wday", some 0, true)], [true, true, true, true, true, true]) := by decide +kernel
  cases e : runSingle demoWorld (demoArgs [modelLinear] none) "s" demoFrame with
  | error e' => rw [e] at h; cases h
  | ok res =>
    rw [e] at h
    have h := Option.some.inj h
    simp only [Prod.mk.injEq] at h
    exact ⟨res, rfl, h.1, h.2⟩

/-- A linear trend whose slope is pinned to 2 by equal bounds. -/
def pinnedLinear : ForecastModel ℚ := { modelLinear with fBounds := fun _ => .ok ⟨[.fin 2, .ninf], [.fin 2, .pinf], true⟩ }

/-- **C56 refuted**: the fit drops the pinned slope, but the forecast evaluates the original model with the remaining parameter: `ValueError`. -/
theorem C56_counterexample : runSingle demoWorld (demoArgs [pinnedLinear] (some [])) "s" demoFrame = .error .valueError := by
  have h : (match runSingle demoWorld (demoArgs [pinnedLinear] (some [])) "s" demoFrame with
    | .error e => some e
    | .ok _ => none) = some .valueError := by decide +kernel
  cases e : runSingle demoWorld (demoArgs [pinnedLinear] (some [])) "s" demoFrame with
  | error e' => rw [e] at h; exact congrArg _ (Option.some.inj h)
  | ok res => rw [e] at h; cases h

end Anticipy
