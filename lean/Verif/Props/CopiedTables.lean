import Verif.Props.CopiedRuns
import Verif.Props.AdditiveTable
import Verif.Props.WeightIntervals
import Verif.Props.MovedIntervals

/-
C125 and the intervals of C76, C77 and C91 for each series of a table.
-/
namespace Anticipy
open Spec
variable {K : Type} [Field K] [LinearOrder K] [FloorRing K]

omit [Field K] [LinearOrder K] [FloorRing K] in
theorem seriesFrame_transformed (f : K → K) (t : STable K) (s : String) : seriesFrame (transformedTable f t) s = transformed f (seriesFrame t s) := by
  refine (seriesFrame_map t (fun r => { r with y := r.y.map f }) 0 (fun _ => rfl) (fun r => by simp) s).trans ?_
  unfold transformed seriesFrame
  simp [List.map_map, Function.comp_def, sampleTransformed]

/-- **C125, tables.** Any function applied to all values of the table carries over to the naive and seasonal naive forecasts for each series. -/
theorem C125_table [IsStrictOrderedRing K] (w w' : World K) (args args' : RunArgs K) (id : String) (t : STable K) (hp : Proper t) (s : String) (hs : IsSeries t id s)
    (f : K → K) (res res' : RunResult K) (h : runForecast w args id t = .ok (some res)) (h' : runForecast w' args' id (transformedTable f t) = .ok (some res'))
    (hsrt : w'.srt = w.srt) (hargs : args'.start = args.start ∧ args.findOutliers = false ∧ args'.findOutliers = false ∧ args'.years = args.years)
    (m : ForecastModel K) (hm : m = modelNaive w.srt ∨ m = modelSnaiveWday w.srt)
    (hcand : ∀ df' cand, candidates w.ch args.models df' (runFreq (seriesFrame t s)) = .ok cand → ∀ m' ∈ cand.2, m'.name = m.name → m' = m)
    (hcand' : ∀ df' cand, candidates w'.ch args'.models df' (runFreq (seriesFrame t s)) = .ok cand → ∀ m' ∈ cand.2, m'.name = m.name → m' = m)
    (hnames : ∀ df' cand, candidates w.ch args.models df' (runFreq (seriesFrame t s)) = .ok cand → (cand.2.map ForecastModel.name).Nodup)
    (hnames' : ∀ df' cand, candidates w'.ch args'.models df' (runFreq (seriesFrame t s)) = .ok cand → (cand.2.map ForecastModel.name).Nodup)
    (hb : ∃ r, ForecastOf (partOf t s res) m.name r) (hb' : ∃ r, ForecastOf (partOf t s res') m.name r) :
    ((partOf t s res').data.filter fun r => !r.isActuals && decide (r.model = m.name)).map (fun r => (r.date, r.y)) =
      ((partOf t s res).data.filter fun r => !r.isActuals && decide (r.model = m.name)).map fun r => (r.date, r.y.map f) := by
  obtain ⟨hd, hrun⟩ := series_run w id t hp s hs
  obtain ⟨-, hrun'⟩ := series_run w' id (transformedTable f t) (proper_map t _ 0 (fun _ => rfl) (fun _ => (add_zero _).symm) hp) s
    (isSeries_map t (fun r => { r with y := r.y.map f }) (fun _ => rfl) id s hs)
  have h2 := hrun' args' res' h'
  rw [seriesFrame_transformed] at h2
  rcases hm with rfl | rfl
  · exact C125_naive w w' args args' s _ f _ _ (hrun args res h) h2 hsrt hargs hcand hcand' hnames hnames' hb hb'
  · exact C125_snaive w w' args args' s _ f _ _ (hrun args res h) h2 hsrt hargs hcand hcand' hnames hnames' hb hb'

/-- **C91, tables.** As `C91_table`, if the returned forecast is a naive one. -/
theorem C91_naive_table [IsStrictOrderedRing K] (w w' : World K) (args args' : RunArgs K) (id : String) (t : STable K) (hp : Proper t) (s : String) (hs : IsSeries t id s)
    (c d : K) (hc : c ≠ 0) (res res' : RunResult K) (h : runForecast w args id t = .ok (some res))
    (h' : runForecast w' args' id (rescaledTable c d t) = .ok (some res'))
    (hargs : args'.start = args.start ∧ args'.findOutliers = args.findOutliers ∧ args'.years = args.years ∧ args'.nCum = args.nCum ∧
      args'.q1 = args.q1 ∧ args'.q2 = args.q2 ∧ args'.widening = args.widening) (hsrt : w'.srt = w.srt) (hdraw : w'.draw s = w.draw s)
    (m : ForecastModel K) (hm : m = modelNaive w.srt ∨ m = modelSnaiveWday w.srt)
    (hcand : ∀ df' cand, candidates w.ch args.models df' (runFreq (seriesFrame t s)) = .ok cand → ∀ m' ∈ cand.2, m'.name = m.name → m' = m)
    (hcand' : ∀ df' cand, candidates w'.ch args'.models df' (runFreq (seriesFrame t s)) = .ok cand → ∀ m' ∈ cand.2, m'.name = m.name → m' = m)
    (hnames : ∀ df' cand, candidates w.ch args.models df' (runFreq (seriesFrame t s)) = .ok cand → (cand.2.map ForecastModel.name).Nodup)
    (hnames' : ∀ df' cand, candidates w'.ch args'.models df' (runFreq (seriesFrame t s)) = .ok cand → (cand.2.map ForecastModel.name).Nodup)
    (hb : ∃ r, ForecastOf (partOf t s res) m.name r ∧ r.isBest = true) (hb' : ∃ r, ForecastOf (partOf t s res') m.name r ∧ r.isBest = true) :
    (partOf t s res').forecast = (partOf t s res).forecast.map (if 0 < c then intervalMoved c fun _ => d else intervalMirrored c fun _ => d) := by
  obtain ⟨hd, hrun⟩ := series_run w id t hp s hs
  obtain ⟨-, hrun'⟩ := series_run w' id (rescaledTable c d t) (proper_map t _ 0 (fun _ => rfl) (fun _ => (add_zero _).symm) hp) s
    (isSeries_map t (fun r => { r with y := r.y.map fun v => c * v + d }) (fun _ => rfl) id s hs)
  have h2 := hrun' args' res' h'
  rw [seriesFrame_rescaled] at h2
  obtain ⟨r, hr, hbr⟩ := hb
  obtain ⟨r', hr', hbr'⟩ := hb'
  rcases hm with rfl | rfl
  · exact C91_naive w w' args args' s _ c d hc _ _ (hrun args res h) h2 hargs hsrt hdraw hcand hcand' hnames hnames' ⟨r, hr.1, hr.2.1, hbr, hr.2.2⟩
      ⟨r', hr'.1, hr'.2.1, hbr', hr'.2.2⟩
  · exact C91_snaive w w' args args' s _ c d hc _ _ (hrun args res h) h2 hargs hsrt hdraw hcand hcand' hnames hnames' ⟨r, hr.1, hr.2.1, hbr, hr.2.2⟩
      ⟨r', hr'.1, hr'.2.1, hbr', hr'.2.2⟩

/-- **C76, tables.** All weights of the table multiplied by the same positive number: the forecast table with all intervals stays the same for each series. -/
theorem C76_intervals_table [IsStrictOrderedRing K] (w w' : World K) (args args' : RunArgs K) (id : String) (t : STable K) (hp : Proper t)
    (s : String) (hs : IsSeries t id s) (k : K) (hk : 0 < k) (hw : t.hasWeight = true) (res res' : RunResult K) (h : runForecast w args id t = .ok (some res))
    (h' : runForecast w' args' id (reweightedTable k t) = .ok (some res'))
    (hargs : args'.start = args.start ∧ args'.findOutliers = args.findOutliers ∧ args'.years = args.years ∧ args'.nCum = args.nCum ∧
      args'.q1 = args.q1 ∧ args'.q2 = args.q2 ∧ args'.widening = args.widening) (hdraw : w'.draw s = w.draw s)
    (m : ForecastModel K) (hma : m.name ≠ "actuals") (reg : Registry K) (feats : List (Feature K)) (hm : AddsUp m reg feats) (hlev : HasLevel feats)
    (hne : feats ≠ []) (hx : FitsExactly w args s (seriesFrame t s) m reg) (hx' : FitsExactly w' args' s (seriesFrame t s) m reg)
    (hnames : ∀ df' cand, candidates w.ch args.models df' (runFreq (seriesFrame t s)) = .ok cand → (cand.2.map ForecastModel.name).Nodup)
    (hnames' : ∀ df' cand, candidates w'.ch args'.models df' (runFreq (seriesFrame t s)) = .ok cand → (cand.2.map ForecastModel.name).Nodup)
    (hid : Identifies feats (originOf t s) (observed (partOf t s res)))
    (hb : ∃ r, ForecastOf (partOf t s res) m.name r ∧ r.isBest = true) (hb' : ∃ r, ForecastOf (partOf t s res') m.name r ∧ r.isBest = true) :
    (partOf t s res').forecast = (partOf t s res).forecast := by
  obtain ⟨hd, hrun⟩ := series_run w id t hp s hs
  obtain ⟨-, hrun'⟩ := series_run w' id (reweightedTable k t) (proper_map t _ 0 (fun _ => rfl) (fun _ => (add_zero _).symm) hp) s
    (isSeries_map t (fun r => { r with weight := r.weight.map fun w => k * w }) (fun _ => rfl) id s hs)
  have h2 := hrun' args' res' h'
  rw [seriesFrame_reweighted] at h2
  exact C76_intervals w w' args args' s _ k hk hw _ _ (hrun args res h) h2 hargs hdraw m hma reg feats hm hlev hne hx hx' hnames hnames' hd.dated _ hd.days hd.nodup
    hid hb hb'

/-- **C77, tables.** All dates of the table moved by a number of weeks after which the features of the model repeat: the forecast table with all intervals moves along, for
each series that is not monthly or yearly. -/
theorem C77_intervals_table [IsStrictOrderedRing K] (w w' : World K) (args args' : RunArgs K) (id : String) (t : STable K) (hp : Proper t)
    (s : String) (hs : IsSeries t id s) (k : Int) (hfreq : NotMonthly (runFreq (seriesFrame t s))) (res res' : RunResult K) (h : runForecast w args id t = .ok (some res))
    (h' : runForecast w' args' id (movedTable (7 * k * (24 * 60 * 60 * 1000000000)) t) = .ok (some res'))
    (hargs : args'.start = (args.start.map fun d => d + 7 * k * (24 * 60 * 60 * 1000000000)) ∧ args'.findOutliers = args.findOutliers ∧ args'.years = args.years ∧
      args'.nCum = args.nCum ∧ args'.q1 = args.q1 ∧ args'.q2 = args.q2 ∧ args'.widening = args.widening) (hdraw : w'.draw s = w.draw s)
    (m : ForecastModel K) (hma : m.name ≠ "actuals") (reg : Registry K) (feats : List (Feature K)) (hm : AddsUp m reg feats) (hlev : HasLevel feats)
    (hne : feats ≠ []) (hper : Periodic feats (7 * k * (24 * 60 * 60 * 1000000000)))
    (hx : FitsExactly w args s (seriesFrame t s) m reg) (hx' : FitsExactly w' args' s (seriesFrame t s) m reg)
    (hnames : ∀ df' cand, candidates w.ch args.models df' (runFreq (seriesFrame t s)) = .ok cand → (cand.2.map ForecastModel.name).Nodup)
    (hnames' : ∀ df' cand, candidates w'.ch args'.models df' (runFreq (seriesFrame t s)) = .ok cand → (cand.2.map ForecastModel.name).Nodup)
    (hid : Identifies feats (originOf t s) (observed (partOf t s res)))
    (hb : ∃ r, ForecastOf (partOf t s res) m.name r ∧ r.isBest = true) (hb' : ∃ r, ForecastOf (partOf t s res') m.name r ∧ r.isBest = true) :
    (partOf t s res').forecast = (partOf t s res).forecast.map fun r => { r with date := r.date + 7 * k * (24 * 60 * 60 * 1000000000) } := by
  obtain ⟨hd, hrun⟩ := series_run w id t hp s hs
  obtain ⟨-, hrun'⟩ := series_run w' id (movedTable (7 * k * (24 * 60 * 60 * 1000000000)) t) (proper_map t _ _ (fun _ => rfl) (fun _ => rfl) hp) s
    (isSeries_map t (fun r => { r with date := r.date + 7 * k * (24 * 60 * 60 * 1000000000) }) (fun _ => rfl) id s hs)
  have h2 := hrun' args' res' h'
  rw [seriesFrame_moved] at h2
  exact C77_intervals w w' args args' s _ k _ (by ring) hfreq _ _ (hrun args res h) h2 hargs hdraw m hma reg feats hm hlev hne hper hx hx' hnames hnames' hd.dated _
    hd.days hd.nodup hid hb hb'

/-! ### A concrete case -/

/-- Naive forecasts for one source of the table with two sources, for the values and for their squares. -/
example : (((runForecast demoWorld (demoArgs [] (some [modelNaive stableSort])) "" steppedTable).toOption.bind id).map fun r => valuesOf "naive" (partOf steppedTable "s" r)) =
      some [(5 * DAY, some 3), (6 * DAY, some 3), (7 * DAY, some 5), (8 * DAY, some 5), (9 * DAY, some 19), (10 * DAY, some 21), (11 * DAY, some 23), (12 * DAY, some 23),
        (13 * DAY, some 23)] ∧
    (((runForecast demoWorld (demoArgs [] (some [modelNaive stableSort])) "" (transformedTable (fun v => v * v) steppedTable)).toOption.bind id).map fun r =>
        valuesOf "naive" (partOf steppedTable "s" r)) =
      some [(5 * DAY, some 9), (6 * DAY, some 9), (7 * DAY, some 25), (8 * DAY, some 25), (9 * DAY, some 361), (10 * DAY, some 441), (11 * DAY, some 529),
        (12 * DAY, some 529), (13 * DAY, some 529)] := by decide +kernel

end Anticipy
