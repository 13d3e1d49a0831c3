import Verif.Props.Copies
import Verif.Props.Balance

/-
C125: naive forecasts only copy values; C91 for them.
-/
namespace Anticipy
open Spec
variable {K : Type} [Field K] [LinearOrder K]

/-- The rows from which the intervals are computed, if the returned forecast is that of model `m`; as `selected_rows` without a formula for the model. -/
theorem selected_any [FloorRing K] [IsStrictOrderedRing K] (w : World K) (args : RunArgs K) (source : String) (df : Frame K) (res : RunResult K)
    (h : runSingle w args source df = .ok res) (m : ForecastModel K) (hma : m.name ≠ "actuals")
    (hcand : ∀ df' cand, candidates w.ch args.models df' (runFreq df) = .ok cand → ∀ m' ∈ cand.2, m'.name = m.name → m' = m)
    (hnames : ∀ df' cand, candidates w.ch args.models df' (runFreq df) = .ok cand → (cand.2.map ForecastModel.name).Nodup)
    (hb : ∃ r ∈ res.data, r.isActuals = false ∧ r.isBest = true ∧ r.model = m.name) :
    ∃ df2 f act mode rows, applyOutliers args.findOutliers (filterStart args.start df) = .ok df2 ∧
      actualsInterpolated w.srt df (usedRows (defaultWeights df2).1) = .ok act ∧ f.isFit = true ∧
      forecastRows (mkSetup w args source df (defaultWeights df2).1 (defaultWeights df2).2 mode act) m f = .ok rows ∧
      selectRows (toFTable df.hasDate res.data) = (defaultWeights df2).1.rows.map (sampleF (defaultWeights df2).1.hasDate source) ++
        rows.map fun p => ⟨p.date, some source, m.name, false, true, p.y, some 1⟩ := by
  obtain ⟨d, hd, hdata, -, -⟩ := runSingle_inv w args source df res h
  obtain ⟨st⟩ := runFits_stages w args source df d hd
  have hd1 : d.1 = _ := congrArg Prod.fst st.hd
  obtain ⟨r, hr, ha, hbest, hm⟩ := hb
  have hr1 : r ∈ d.1 := by
    rw [hdata] at hr
    unfold selectFits at hr
    split_ifs at hr
    · exact hr
    · exact (List.mem_filter.1 hr).1
  rw [hd1] at hr1
  obtain ⟨q, hq, rfl⟩ := List.mem_map.1 hr1
  have hq : q ∈ st.fits.2 := by
    rcases List.mem_append.1 hq with hq | hq
    · unfold actualsClean at hq
      obtain ⟨q', -, rfl⟩ := List.mem_map.1 hq
      cases ha
    · exact hq
  have hkey : bestKey w.srt st.fits.1 = some (q.long, m.name) := by
    have := of_decide_eq_true (show decide (bestKey w.srt st.fits.1 = some (q.long, q.model)) = true from hbest)
    rw [this]
    rw [show q.model = m.name from hm]
  obtain ⟨k, m', f0, rows0, e1, -, e3, e4⟩ := (fitLoop_spec _ _ _ _ _ st.hFits).2.2 q hq
  have hmm : m' = m := hcand _ _ st.hCand m' (List.mem_of_getElem? e1) (by
    rw [← (forecastRows_mem _ _ _ _ e3 q e4).2.2.2.1]
    exact hm)
  subst hmm
  obtain ⟨f, rows, g1, g2, g3⟩ := fitLoop_only _ _ _ _ _ st.hFits (hnames _ _ st.hCand) k m' e1
  have hqr : q ∈ rows := by
    rw [← g3]
    exact List.mem_filter.2 ⟨hq, decide_eq_true hm⟩
  obtain ⟨-, -, -, -, hlong, hfit, -⟩ := forecastRows_mem _ _ _ _ g2 q hqr
  refine ⟨st.df2, f, st.actuals, st.cand.1, rows, st.hOut, st.hAct, hfit, g2, ?_⟩
  have hsel : selectRows (toFTable df.hasDate res.data) = (d.1.filter fun r => r.isActuals || r.isBest).map fun r =>
      (⟨r.date, some r.source, r.model, r.isActuals, r.isBest, r.y, r.weight⟩ : FRow K) := by
    unfold selectRows toFTable
    simp only [if_true]
    rw [hdata, List.filter_map]
    congr 1
    unfold selectFits
    split_ifs
    · rfl
    · rw [List.filter_filter]
      apply List.filter_congr
      intro r _
      simp only [Function.comp]
      cases r.isActuals <;> cases r.isBest <;> rfl
  rw [hsel, hd1, List.map_append, List.filter_append, List.map_append]
  congr 1
  · rw [List.filter_eq_self.2]
    · unfold actualsClean
      rw [List.map_map, List.map_map]
      apply List.map_congr_left
      intro r _
      simp only [Function.comp, flagData, sampleF, hkey]
      rw [decide_eq_false (by
        intro hc
        exact hma (Prod.mk.inj (Option.some.inj hc)).2)]
    · intro r hr
      unfold actualsClean at hr
      rw [List.map_map] at hr
      obtain ⟨r', -, rfl⟩ := List.mem_map.1 hr
      rfl
  · have hflag : (st.fits.2.map (flagData (bestKey w.srt st.fits.1))).filter (fun r => r.isActuals || r.isBest) =
        (st.fits.2.filter fun r => decide (r.model = m'.name)).map (flagData (bestKey w.srt st.fits.1)) := by
      rw [List.filter_map]
      congr 1
      apply List.filter_congr
      intro r hr
      obtain ⟨k2, m2, f2, rows2, -, -, t3, t4⟩ := (fitLoop_spec _ _ _ _ _ st.hFits).2.2 r hr
      have hra := (forecastRows_mem _ _ _ _ t3 r t4).1
      simp only [Function.comp, flagData, hra, Bool.false_or, hkey]
      rw [decide_eq_decide]
      constructor
      · intro hc
        exact (Prod.mk.inj (Option.some.inj hc)).2.symm
      · intro hc
        have hr2 : r ∈ rows := by
          rw [← g3]
          exact List.mem_filter.2 ⟨hr, decide_eq_true hc⟩
        rw [(forecastRows_mem _ _ _ _ g2 r hr2).2.2.2.2.1, hlong, hc]
    rw [hflag, g3, List.map_map]
    apply List.map_congr_left
    intro p hp
    obtain ⟨b1, b2, b3, b4, b5, b6, b7⟩ := forecastRows_mem _ _ _ _ g2 p hp
    simp only [Function.comp, flagData, hkey, b1, b3, b4, b5, b7]
    rw [decide_eq_true (by rw [hlong])]
    rfl

/-- The whole forecast table follows if the returned forecast is that of a model that only copies. -/
theorem copied_table [FloorRing K] [IsStrictOrderedRing K] (w w' : World K) (args args' : RunArgs K) (source : String) (df : Frame K) (c d : K)
    (hc : c ≠ 0) (res res' : RunResult K) (h : runSingle w args source df = .ok res) (h' : runSingle w' args' source (rescaled c d df) = .ok res')
    (hargs : args'.start = args.start ∧ args'.findOutliers = args.findOutliers ∧ args'.years = args.years ∧ args'.nCum = args.nCum ∧
      args'.q1 = args.q1 ∧ args'.q2 = args.q2 ∧ args'.widening = args.widening) (hsrt : w'.srt = w.srt) (hdraw : w'.draw source = w.draw source)
    (m : ForecastModel K) (hma : m.name ≠ "actuals") (hm : OnlyCopies m)
    (hcand : ∀ df' cand, candidates w.ch args.models df' (runFreq df) = .ok cand → ∀ m' ∈ cand.2, m'.name = m.name → m' = m)
    (hcand' : ∀ df' cand, candidates w'.ch args'.models df' (runFreq df) = .ok cand → ∀ m' ∈ cand.2, m'.name = m.name → m' = m)
    (hnames : ∀ df' cand, candidates w.ch args.models df' (runFreq df) = .ok cand → (cand.2.map ForecastModel.name).Nodup)
    (hnames' : ∀ df' cand, candidates w'.ch args'.models df' (runFreq df) = .ok cand → (cand.2.map ForecastModel.name).Nodup)
    (hb : ∃ r ∈ res.data, r.isActuals = false ∧ r.isBest = true ∧ r.model = m.name)
    (hb' : ∃ r ∈ res'.data, r.isActuals = false ∧ r.isBest = true ∧ r.model = m.name) :
    res'.forecast = res.forecast.map (if 0 < c then intervalMoved c fun _ => d else intervalMirrored c fun _ => d) := by
  have htr : ∀ g : Frame K, rescaled c d g = transformed (fun v => c * v + d) g := fun g => rfl
  have hfreq : runFreq (rescaled c d df) = runFreq df := by rw [htr, runFreq_transformed]
  obtain ⟨df2, g, act, mode, rows, e1, e2, e3, e4, e5⟩ := selected_any w args source df res h m hma hcand hnames hb
  obtain ⟨df2', g', act', mode', rows', e1', e2', e3', e4', e5'⟩ := selected_any w' args' source _ res' h' m hma (by rw [hfreq]; exact hcand')
    (by rw [hfreq]; exact hnames') hb'
  obtain ⟨a1, a2, a3, a4, a5, a6, a7⟩ := hargs
  rw [a1, a2, filterStart_rescaled, applyOutliers_rescaled c d hc, e1] at e1'
  have := (Except.ok.inj e1').symm
  subst this
  rw [htr df2, defaultWeights_transformed, usedRows_transformed, hsrt, htr df, actuals_transformed, e2] at e2'
  have := (Except.ok.inj e2').symm
  subst this
  have hax : ∀ g : Frame K, axisOf (transformed (fun v => c * v + d) g) = axisOf g := by
    intro g
    unfold axisOf transformed
    simp only [List.map_map]
    rfl
  have hr := forecastRows_transformed (fun v => c * v + d) _ _ m hm g g' rows rows' (by simp only [mkSetup]; rw [htr df2, defaultWeights_transformed, usedRows_transformed]) (by simp only [mkSetup])
    (by simp only [mkSetup]; rw [htr df2, defaultWeights_transformed, hax]) (by simp only [mkSetup]; rw [hfreq]) (by simp only [mkSetup, a3]) e3 e3' e4 e4'
  have hrows : selectRows (toFTable (rescaled c d df).hasDate res'.data) = selectRows (valuesMoved c (fun _ => d) (toFTable df.hasDate res.data)) := by
    rw [selectRows_moved, e5, e5', List.map_append, List.map_map, htr df2, defaultWeights_transformed]
    congr 1
    · unfold transformed
      simp only [List.map_map]
      rfl
    · have := congrArg (List.map fun p : Int × Option K => (⟨p.1, some source, m.name, false, true, p.2, some 1⟩ : FRow K)) hr
      rw [List.map_map, List.map_map] at this
      rw [List.map_map]
      exact this
  obtain ⟨-, -, -, -, hpi⟩ := runSingle_inv w args source df res h
  obtain ⟨-, -, -, -, hpi'⟩ := runSingle_inv w' args' source _ res' h'
  rw [getPi_one_source _ _ _ source (run_sources w args source df res h).1] at hpi
  rw [getPi_one_source _ _ _ source (run_sources w' args' source _ res' h').1, hdraw, a4, a5, a6, a7,
    piSingle_selected _ (valuesMoved c (fun _ => d) (toFTable df.hasDate res.data)) (toFTable (rescaled c d df).hasDate res'.data) rfl rfl rfl hrows, single_moved c hc, hpi] at hpi'
  have := (Except.ok.inj hpi').symm
  rw [this]
  apply List.map_congr_left
  intro r _
  unfold moveOf
  split_ifs <;> rfl

/-- **C125.** Naive forecasts are made of values of the samples: if any function `f` is applied to all values, the naive forecasts of the same days become `f` of the former ones,
whatever `f` is and whatever the other models do. Both results contain naive forecasts; no search for outliers; candidates have different names. -/
theorem C125_naive [FloorRing K] [IsStrictOrderedRing K] (w w' : World K) (args args' : RunArgs K) (source : String) (df : Frame K) (f : K → K) (res res' : RunResult K)
    (h : runSingle w args source df = .ok res) (h' : runSingle w' args' source (transformed f df) = .ok res') (hsrt : w'.srt = w.srt)
    (hargs : args'.start = args.start ∧ args.findOutliers = false ∧ args'.findOutliers = false ∧ args'.years = args.years)
    (hcand : ∀ df' cand, candidates w.ch args.models df' (runFreq df) = .ok cand → ∀ m ∈ cand.2, m.name = "naive" → m = modelNaive w.srt)
    (hcand' : ∀ df' cand, candidates w'.ch args'.models df' (runFreq df) = .ok cand → ∀ m ∈ cand.2, m.name = "naive" → m = modelNaive w.srt)
    (hnames : ∀ df' cand, candidates w.ch args.models df' (runFreq df) = .ok cand → (cand.2.map ForecastModel.name).Nodup)
    (hnames' : ∀ df' cand, candidates w'.ch args'.models df' (runFreq df) = .ok cand → (cand.2.map ForecastModel.name).Nodup)
    (hb : ∃ r ∈ res.data, r.isActuals = false ∧ r.model = "naive") (hb' : ∃ r ∈ res'.data, r.isActuals = false ∧ r.model = "naive") :
    (res'.data.filter fun r => !r.isActuals && decide (r.model = "naive")).map (fun r => (r.date, r.y)) =
      (res.data.filter fun r => !r.isActuals && decide (r.model = "naive")).map fun r => (r.date, r.y.map f) :=
  copied_rows w w' args args' source df f res res' h h' hsrt ⟨hargs.1, hargs.2.2.1.trans hargs.2.1.symm, hargs.2.2.2⟩ (by
    intro df2 e
    rw [hargs.2.1] at e ⊢
    have := Except.ok.inj (show Except.ok (filterStart args.start df) = Except.ok df2 from e)
    rw [← this]
    rfl) (modelNaive w.srt) (naive_copies w.srt) hcand hcand' hnames hnames' hb hb'

/-- **C125.** As `C125_naive`, for the seasonal naive model. -/
theorem C125_snaive [FloorRing K] [IsStrictOrderedRing K] (w w' : World K) (args args' : RunArgs K) (source : String) (df : Frame K) (f : K → K) (res res' : RunResult K)
    (h : runSingle w args source df = .ok res) (h' : runSingle w' args' source (transformed f df) = .ok res') (hsrt : w'.srt = w.srt)
    (hargs : args'.start = args.start ∧ args.findOutliers = false ∧ args'.findOutliers = false ∧ args'.years = args.years)
    (hcand : ∀ df' cand, candidates w.ch args.models df' (runFreq df) = .ok cand → ∀ m ∈ cand.2, m.name = "snaive_wday" → m = modelSnaiveWday w.srt)
    (hcand' : ∀ df' cand, candidates w'.ch args'.models df' (runFreq df) = .ok cand → ∀ m ∈ cand.2, m.name = "snaive_wday" → m = modelSnaiveWday w.srt)
    (hnames : ∀ df' cand, candidates w.ch args.models df' (runFreq df) = .ok cand → (cand.2.map ForecastModel.name).Nodup)
    (hnames' : ∀ df' cand, candidates w'.ch args'.models df' (runFreq df) = .ok cand → (cand.2.map ForecastModel.name).Nodup)
    (hb : ∃ r ∈ res.data, r.isActuals = false ∧ r.model = "snaive_wday") (hb' : ∃ r ∈ res'.data, r.isActuals = false ∧ r.model = "snaive_wday") :
    (res'.data.filter fun r => !r.isActuals && decide (r.model = "snaive_wday")).map (fun r => (r.date, r.y)) =
      (res.data.filter fun r => !r.isActuals && decide (r.model = "snaive_wday")).map fun r => (r.date, r.y.map f) :=
  copied_rows w w' args args' source df f res res' h h' hsrt ⟨hargs.1, hargs.2.2.1.trans hargs.2.1.symm, hargs.2.2.2⟩ (by
    intro df2 e
    rw [hargs.2.1] at e ⊢
    have := Except.ok.inj (show Except.ok (filterStart args.start df) = Except.ok df2 from e)
    rw [← this]
    rfl) (modelSnaiveWday w.srt) (snaive_copies w.srt) hcand hcand' hnames hnames' hb hb'

/-- **C91.** If the returned forecast is the naive one in both runs, all columns of the forecast table follow, `c * y + d`, with or without search for outliers, and without any
assumption on the solvers. -/
theorem C91_naive [FloorRing K] [IsStrictOrderedRing K] (w w' : World K) (args args' : RunArgs K) (source : String) (df : Frame K) (c d : K)
    (hc : c ≠ 0) (res res' : RunResult K) (h : runSingle w args source df = .ok res) (h' : runSingle w' args' source (rescaled c d df) = .ok res')
    (hargs : args'.start = args.start ∧ args'.findOutliers = args.findOutliers ∧ args'.years = args.years ∧ args'.nCum = args.nCum ∧
      args'.q1 = args.q1 ∧ args'.q2 = args.q2 ∧ args'.widening = args.widening) (hsrt : w'.srt = w.srt) (hdraw : w'.draw source = w.draw source)
    (hcand : ∀ df' cand, candidates w.ch args.models df' (runFreq df) = .ok cand → ∀ m ∈ cand.2, m.name = "naive" → m = modelNaive w.srt)
    (hcand' : ∀ df' cand, candidates w'.ch args'.models df' (runFreq df) = .ok cand → ∀ m ∈ cand.2, m.name = "naive" → m = modelNaive w.srt)
    (hnames : ∀ df' cand, candidates w.ch args.models df' (runFreq df) = .ok cand → (cand.2.map ForecastModel.name).Nodup)
    (hnames' : ∀ df' cand, candidates w'.ch args'.models df' (runFreq df) = .ok cand → (cand.2.map ForecastModel.name).Nodup)
    (hb : ∃ r ∈ res.data, r.isActuals = false ∧ r.isBest = true ∧ r.model = "naive")
    (hb' : ∃ r ∈ res'.data, r.isActuals = false ∧ r.isBest = true ∧ r.model = "naive") :
    res'.forecast = res.forecast.map (if 0 < c then intervalMoved c fun _ => d else intervalMirrored c fun _ => d) :=
  copied_table w w' args args' source df c d hc res res' h h' hargs hsrt hdraw (modelNaive w.srt) (show "naive" ≠ "actuals" by decide) (naive_copies w.srt) hcand hcand'
    hnames hnames' hb hb'

/-- **C91.** As `C91_naive`, for the seasonal naive model. -/
theorem C91_snaive [FloorRing K] [IsStrictOrderedRing K] (w w' : World K) (args args' : RunArgs K) (source : String) (df : Frame K) (c d : K)
    (hc : c ≠ 0) (res res' : RunResult K) (h : runSingle w args source df = .ok res) (h' : runSingle w' args' source (rescaled c d df) = .ok res')
    (hargs : args'.start = args.start ∧ args'.findOutliers = args.findOutliers ∧ args'.years = args.years ∧ args'.nCum = args.nCum ∧
      args'.q1 = args.q1 ∧ args'.q2 = args.q2 ∧ args'.widening = args.widening) (hsrt : w'.srt = w.srt) (hdraw : w'.draw source = w.draw source)
    (hcand : ∀ df' cand, candidates w.ch args.models df' (runFreq df) = .ok cand → ∀ m ∈ cand.2, m.name = "snaive_wday" → m = modelSnaiveWday w.srt)
    (hcand' : ∀ df' cand, candidates w'.ch args'.models df' (runFreq df) = .ok cand → ∀ m ∈ cand.2, m.name = "snaive_wday" → m = modelSnaiveWday w.srt)
    (hnames : ∀ df' cand, candidates w.ch args.models df' (runFreq df) = .ok cand → (cand.2.map ForecastModel.name).Nodup)
    (hnames' : ∀ df' cand, candidates w'.ch args'.models df' (runFreq df) = .ok cand → (cand.2.map ForecastModel.name).Nodup)
    (hb : ∃ r ∈ res.data, r.isActuals = false ∧ r.isBest = true ∧ r.model = "snaive_wday")
    (hb' : ∃ r ∈ res'.data, r.isActuals = false ∧ r.isBest = true ∧ r.model = "snaive_wday") :
    res'.forecast = res.forecast.map (if 0 < c then intervalMoved c fun _ => d else intervalMirrored c fun _ => d) :=
  copied_table w w' args args' source df c d hc res res' h h' hargs hsrt hdraw (modelSnaiveWday w.srt) (show "snaive_wday" ≠ "actuals" by decide) (snaive_copies w.srt) hcand hcand'
    hnames hnames' hb hb'

/-! ### Examples -/

/-- A run with the two naive models, without trend. -/
def copyOf (naive : List (ForecastModel ℚ)) (df : Frame ℚ) : Option (RunResult ℚ) := (runSingle demoWorld (demoArgs [] (some naive)) "s" df).toOption

/-- Forecast values of one model. -/
def valuesOf (name : String) (r : RunResult ℚ) : List (Timestamp × Option ℚ) := (r.data.filter fun q => !q.isActuals && decide (q.model = name)).map fun q => (q.date, q.y)

/-- `C125` on samples 1, 4, 3, missing, 9 and their squares minus 10: not an affine function. -/
example : ((copyOf [modelNaive stableSort, modelSnaiveWday stableSort] scatterFrame).map (valuesOf "naive")) =
      some [(4 * DAY, some 1), (5 * DAY, some 1), (6 * DAY, some 4), (7 * DAY, some 3), (8 * DAY, some 3), (9 * DAY, some 9), (10 * DAY, some 9), (11 * DAY, some 9)] ∧
    ((copyOf [modelNaive stableSort, modelSnaiveWday stableSort] (transformed (fun v => v * v - 10) scatterFrame)).map (valuesOf "naive")) =
      some [(4 * DAY, some (-9)), (5 * DAY, some (-9)), (6 * DAY, some 6), (7 * DAY, some (-1)), (8 * DAY, some (-1)), (9 * DAY, some 71), (10 * DAY, some 71),
        (11 * DAY, some 71)] := by decide +kernel

/-- `C91_naive`: the last row of the forecast table, for the values and for `3 - 2 * y`. -/
example : ((copyOf [modelNaive stableSort] (rescaled (-2) 3 scatterFrame)).map fun r => r.forecast) =
      ((copyOf [modelNaive stableSort] scatterFrame).map fun r => r.forecast.map (intervalMirrored (-2) fun _ => 3)) ∧
    ((copyOf [modelNaive stableSort] scatterFrame).map fun r => (r.forecast.length, (r.forecast.getLast?.map fun q => q.y))) = some (12, some (some 9)) := by decide +kernel

end Anticipy
