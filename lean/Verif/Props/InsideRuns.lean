import Verif.Props.Inside
import Verif.Props.EachSeries

/-
C132 for whole runs: one hundred simulations for each forecast.
-/
namespace Anticipy
open Spec
variable {K : Type} [Field K] [LinearOrder K] [FloorRing K] [IsStrictOrderedRing K]

/-- **C132, runs (partial).** Each forecast that a run reports, for any series of any table, has one hundred simulated deviations behind its columns. With the
default percentiles it lies inside its inner interval if 21 of them are on either side of it, inside its outer interval if 6 are; and it is outside the inner
interval if fewer than 20 are on one side. -/
theorem C132_run_partial (w : World K) (args : RunArgs K) (id : String) (t : STable K) (res : RunResult K) (h : runForecast w args id t = .ok (some res))
    (s : String) (hm : IsSeries t id s) (hq : args.q1 = 5 ∧ args.q2 = 20) (r : PRow K) (hr : r ∈ (partOf t s res).forecast) (hf : r.isActuals = false) :
    ∃ devs : List K, devs.length = 100 ∧ (∀ p v, (p, v) ∈ r.q → v = lift2 (· + ·) r.y (percentile devs p)) ∧
      (21 ≤ countBelow devs → 21 ≤ countAbove devs → InsideInterval 20 80 r) ∧ (6 ≤ countBelow devs → 6 ≤ countAbove devs → InsideInterval 5 95 r) ∧
      (countBelow devs < 20 ∨ countAbove devs < 20 → ¬ InsideInterval 20 80 r) := by
  obtain ⟨df, -, -, -, -, -, e⟩ := each_series w args id t res h s hm
  obtain ⟨d, -, -, -, hpi⟩ := runSingle_inv w args s df _ e
  obtain ⟨q1, q2⟩ := hq
  rw [q1, q2] at hpi
  obtain ⟨devs, hl, hc, hin, hout⟩ := C132_inside_partial _ _ _ _ _ _ _ _ hpi r hr hf
  have hy : r.y ≠ none := by
    obtain ⟨v, hv⟩ := (C43_run w args s df _ e r hr).2.2 hf args.q1 (by simp)
    have := hc _ _ hv
    intro hn
    rw [hn] at this
    cases this
  have e80 : (100 : K) - 80 = 20 := by norm_num
  have e95 : (100 : K) - 95 = 5 := by norm_num
  have e5 : (100 : K) - 5 = 95 := by norm_num
  have e20 : (100 : K) - 20 = 80 := by norm_num
  have s20 : shareOf 100 (20 : K) = 99 / 5 := by unfold shareOf; norm_num
  have s5 : shareOf 100 (5 : K) = 99 / 20 := by unfold shareOf; norm_num
  rw [e5, e20] at hin hout
  have h20 := hin 20 (by simp) 80 (by simp)
  have h5 := hin 5 (by simp) 95 (by simp)
  have hn20 := hout 20 (by simp) 80 (by simp) (by norm_num) hy
  rw [e80, s20] at h20 hn20
  rw [e95, s5] at h5
  refine ⟨devs, hl, hc, fun h1 h2 => h20 ?_ ?_, fun h1 h2 => h5 ?_ ?_, fun hs hi => ?_⟩
  · have : (21 : K) ≤ (countBelow devs : K) := by exact_mod_cast h1
    linarith
  · have : (21 : K) ≤ (countAbove devs : K) := by exact_mod_cast h2
    linarith
  · have : (6 : K) ≤ (countBelow devs : K) := by exact_mod_cast h1
    linarith
  · have : (6 : K) ≤ (countAbove devs : K) := by exact_mod_cast h2
    linarith
  · obtain ⟨k1, k2⟩ := hn20 hi
    rcases hs with hs | hs
    · have : (countBelow devs : K) + 1 ≤ 20 := by exact_mod_cast hs
      linarith
    · have : (countAbove devs : K) + 1 ≤ 20 := by exact_mod_cast hs
      linarith

/-- Reported forecasts with intervals exist: in the example with two sources the first forecast of source "a" has four columns. -/
example : ((runForecast demoWorld (demoArgs [modelLinear, modelConstant] (some [])) "" demoTable).toOption.map fun o => o.map fun r =>
    ((partOf demoTable "a" r).forecast.filter fun p => !p.isActuals).head?.map fun p => (p.y, p.q.map Prod.fst)) = some (some (some (some 1, [5, 95, 20, 80]))) := by
  decide +kernel

end Anticipy
