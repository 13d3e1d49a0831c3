import Verif.Props.AdditiveTable

/-
C49 for any model that adds up features: rows before the starting date.
-/
namespace Anticipy
open Spec
variable {K : Type} [Field K] [LinearOrder K]

/-- **C49 (rows), any additive model** that does not depend on where the coordinate starts. Rows before the starting date may be changed, removed or added, and
rows may be given in any order: the forecast for a source and date is the same. -/
theorem C49_rows_additive_partial [FloorRing K] [IsStrictOrderedRing K] (w w' : World K) (args args' : RunArgs K) (id id' : String) (t t' : STable K)
    (hre : AgreeFrom args.start t t') (ht : OnePerDate t) (ht' : OnePerDate t') (res res' : RunResult K) (h : runForecast w args id t = .ok (some res))
    (h' : runForecast w' args' id' t' = .ok (some res')) (hstart : args'.start = args.start) (hout : args'.findOutliers = args.findOutliers)
    (m : ForecastModel K) (reg : Registry K) (feats : List (Feature K)) (hm : AddsUp m reg feats) (hlev : HasLevel feats) (hne : feats ≠ [])
    (horig : NoOrigin feats.length (combination feats))
    (hmin : ∀ s i, FindsMinimum (w.env s i)) (hmin' : ∀ s i, FindsMinimum (w'.env s i))
    (hreg : ∀ s i, Registered (w.env s i).globalCache reg m) (hreg' : ∀ s i, Registered (w'.env s i).globalCache reg m)
    (hcand : ∀ df fr cand, candidates w.ch args.models df fr = .ok cand → ∀ m' ∈ cand.2, m'.name = m.name → m' = m)
    (hcand' : ∀ df fr cand, candidates w'.ch args'.models df fr = .ok cand → ∀ m' ∈ cand.2, m'.name = m.name → m' = m)
    (r r' : DRow K) (hr : ForecastOf res m.name r) (hr' : ForecastOf res' m.name r')
    (t0 : Timestamp) (h0 : ∀ a ∈ observed res', (24 * 60 * 60 * 1000000000 : Int) ∣ a.date - t0)
    (hid : Identifies feats t0 ((observed res').filter fun a => a.source == r'.source))
    (hsrc : t.hasSource = true → r'.source = r.source) (hsame : r'.date = r.date) : r'.y = r.y := by
  refine agreeing_run w w' args args' id id' t t' hre ht ht' res res' h h' hstart hout hmin hmin' m hm.unpinned reg _
    (hm.inParameters hlev hne) (by rw [← hm.count]; exact horig) hreg hreg' hcand hcand' r r' hr.1 hr'.1 hr.2.1 hr'.2.1 hsrc hr.2.2 hr'.2.2 hsame ?_
  intro df part t1 hp hall hdate hdays
  refine telling_observed w' args' r'.source df part hp hdate t1 hdays feats ?_
  have hsub : ∀ a ∈ (observed res').filter (fun a => a.source == r'.source), a ∈ observed part := by
    intro a ha
    rw [List.mem_filter] at ha
    obtain ⟨ha, hs⟩ := ha
    unfold observed at ha ⊢
    rw [List.mem_filter] at ha ⊢
    exact ⟨hall a ha.1 (by simpa using hs), ha.2⟩
  have h1 := identifies_origin feats horig t0 t1 _ hid (fun a ha => h0 a (List.mem_filter.1 ha).1)
    (fun a ha => observed_days w' args' r'.source df part hp hdate t1 hdays a (hsub a ha))
  intro p q hp hq he
  exact h1 p q hp hq fun a ha => he a (hsub a ha)

/-! ### A concrete case -/

/-- Two early rows of the series "s" of `steppedTable` have other values or are missing; one is new. -/
def earlierTable : STable ℚ := { steppedTable with rows := ⟨3 * DAY, some "s", 0, some 1000, some 3⟩ :: steppedTable.rows.filter fun r => decide (5 * DAY ≤ r.date) }

example : AgreeFrom (some (5 * DAY)) steppedTable earlierTable ∧ OnePerDate steppedTable ∧ OnePerDate earlierTable :=
  ⟨⟨by decide +kernel, rfl, rfl, rfl, rfl⟩, ⟨rfl, rfl, by decide +kernel, by decide +kernel⟩, ⟨rfl, rfl, by decide +kernel, by decide +kernel⟩⟩

/-- With the solver of `steppedWorld` the forecasts for the dates of the first run. -/
example : ((runForecast steppedWorld { steppedArgs with start := some (5 * DAY) } "" steppedTable).toOption.bind id).map (fun r =>
    (((partOf steppedTable "s" r).data.filter fun q => !q.isActuals).map fun q => (q.date / DAY, q.y))) =
    some [(5, some 3), (6, some 5), (7, some 7), (8, some 19), (9, some 21), (10, some 23), (11, some 25), (12, some 27), (13, some 29)] := by decide +kernel

end Anticipy
