import Verif.Spec.Descriptions
import Verif.Props.RunExamples

/-
C95: the columns that describe a series.
-/
namespace Anticipy
open Spec
variable {K : Type} [Field K] [LinearOrder K]

/-- Every fit of a series carries the same description. -/
theorem fitModel_text (env : Env K) (m : ForecastModel K) (df : Frame K) (actuals : Option (Frame K)) (c : Bool) (f : FitResult K)
    (h : fitModel env m df actuals c = .ok f) : f.weights = weightsMeta df ∧ rangeMeta m (prepare df) = .ok f.range := by
  unfold fitModel at h
  simp only [bind, Except.bind] at h
  cases hr : rangeMeta m (prepare df) with
  | error e => rw [hr] at h; cases h
  | ok rng =>
    rw [hr] at h
    dsimp only at h
    by_cases h1 : (prepare df).xs = []
    · rw [if_pos h1] at h
      cases h
      exact ⟨rfl, rfl⟩
    · rw [if_neg h1] at h
      by_cases h2 : (prepare df).xs.length < m.nParams + 2
      · rw [if_pos h2] at h
        cases h
        exact ⟨rfl, rfl⟩
      · rw [if_neg h2] at h
        cases h3 : m.validateInput (scaleX m (prepare df).xs) (prepare df).ys (prepare df).dates with
        | error e => rw [h3] at h; cases h
        | ok valid =>
          rw [h3] at h
          dsimp only at h
          cases valid with
          | false =>
            cases h
            exact ⟨rfl, rfl⟩
          | true =>
            simp only [Bool.not_true, Bool.false_eq_true, if_false] at h
            cases h4 : simplifyModel env.label m ⟨some (scaleX m (prepare df).xs), some (prepare df).ys, (prepare df).dates⟩ with
            | error e => rw [h4] at h; cases h
            | ok m' =>
              rw [h4] at h
              dsimp only at h
              unfold attemptFit at h
              by_cases h5 : m'.nParams = 0
              · rw [if_pos h5] at h
                simp only [bind, Except.bind] at h
                split at h
                · cases h
                · split at h
                  · cases h
                  · cases h
                    exact ⟨rfl, rfl⟩
              · rw [if_neg h5] at h
                simp only [bind, Except.bind] at h
                split at h
                · cases h
                · split at h
                  · cases h
                  · cases h
                    exact ⟨rfl, rfl⟩

theorem falls_on_day (t : Int) : FallsOn t (dayOf t) := by
  unfold FallsOn dayOf dayNs DAY
  omega

theorem spanned_of {α : Type} [LinearOrder α] (l : List α) (a b : α) (h1 : listMin l = some a) (h2 : listMax l = some b) : SpannedBy a b l := by
  obtain ⟨m1, m2⟩ := (listMin_some l a).1 h1
  obtain ⟨n1, n2⟩ := (listMax_some l b).1 h2
  exact ⟨m1, n1, fun t ht => ⟨m2 t ht, n2 t ht⟩⟩

theorem weights_say (l : List K) : WeightsSay (.range (listMin l) (listMax l)) l := by
  cases h1 : listMin l with
  | none =>
    rw [listMin_none] at h1
    subst h1
    rfl
  | some a =>
    cases h2 : listMax l with
    | none =>
      rw [listMax_none] at h2
      subst h2
      cases h1
    | some b => exact spanned_of l a b h1 h2

/-- The samples of a run after the starting date, with their weights, are the observations of the result. -/
theorem observations_run [FloorRing K] (w : World K) (args : RunArgs K) (source : String) (df : Frame K) (res : RunResult K) (d : List (DRow K) × List (MRow K))
    (hdata : res.data = (selectFits args.includeAll d).1) (st : RunStages w args source df d) :
    observedRows res.data =
      (actualsClean (defaultWeights st.df2).1 source ⟨(defaultWeights st.df2).2, runFreq df, st.range⟩).map (flagData (bestKey w.srt st.fits.1)) := by
  unfold observedRows
  rw [hdata]
  exact actual_rows w args source df d st

/-- The search for outliers and the default weights keep the columns; afterwards there is a weight column. -/
theorem stage_columns [FloorRing K] [IsStrictOrderedRing K] (w : World K) (args : RunArgs K) (source : String) (df : Frame K) (d : List (DRow K) × List (MRow K))
    (st : RunStages w args source df d) : (defaultWeights st.df2).1.hasDate = df.hasDate ∧ (defaultWeights st.df2).1.hasWeight = true ∧
      ((defaultWeights st.df2).2 = .one ↔ df.hasWeight = false ∧ args.findOutliers = false) := by
  obtain ⟨spike, -, -, -, h3⟩ := weights_stage _ _ _ st.hOut
  have hf := filterStart_rows args.start df
  have hfw : (filterStart args.start df).hasWeight = df.hasWeight := by rw [hf]
  refine ⟨?_, by rw [h3]; rfl, ?_⟩
  · rw [h3]
    show (filterStart args.start df).hasDate = df.hasDate
    rw [hf]
  · have h0 := st.hOut
    unfold applyOutliers at h0
    have hcase : (defaultWeights st.df2).2 = .one ↔ st.df2.hasWeight = false := by
      unfold defaultWeights
      cases st.df2.hasWeight <;> simp
    rw [hcase]
    cases hfo : args.findOutliers with
    | false =>
      rw [hfo] at h0
      simp only [Bool.false_eq_true, if_false, Except.ok.injEq] at h0
      rw [← h0, hfw]
      simp
    | true =>
      rw [hfo] at h0
      simp only [if_true, bind, Except.bind] at h0
      cases h1 : getModelOutliers (filterStart args.start df) 3 with
      | error e => rw [h1] at h0; cases h0
      | ok m =>
        rw [h1] at h0
        rw [← Except.ok.inj h0]
        simp

theorem stage_date [FloorRing K] (w : World K) (args : RunArgs K) (source : String) (df : Frame K) (d : List (DRow K) × List (MRow K))
    (st : RunStages w args source df d) : (defaultWeights st.df2).1.hasDate = df.hasDate := by
  have h0 := st.hOut
  have hf := filterStart_rows args.start df
  have e : st.df2.hasDate = df.hasDate := by
    unfold applyOutliers at h0
    cases hfo : args.findOutliers with
    | false =>
      rw [hfo] at h0
      simp only [Bool.false_eq_true, if_false, Except.ok.injEq] at h0
      rw [← h0, hf]
    | true =>
      rw [hfo] at h0
      simp only [if_true, bind, Except.bind] at h0
      cases h1 : getModelOutliers (filterStart args.start df) 3 with
      | error e => rw [h1] at h0; cases h0
      | ok m =>
        rw [h1] at h0
        rw [← Except.ok.inj h0, hf]
  rw [← e]
  unfold defaultWeights
  split <;> rfl

/-- What the fits say of the samples used. -/
theorem used_text [FloorRing K] [IsStrictOrderedRing K] (w : World K) (args : RunArgs K) (source : String) (df : Frame K) (res : RunResult K) (d : List (DRow K) × List (MRow K))
    (hdata : res.data = (selectFits args.includeAll d).1) (st : RunStages w args source df d) :
    (∀ m rng, (df.hasDate = true ∨ m.name ∉ scaledNames) → rangeMeta m (prepare (usedRows (defaultWeights st.df2).1)) = .ok rng → RangeSays df.hasDate rng ((fitted res.data).map DRow.date)) ∧
      WeightsSay (weightsMeta (usedRows (defaultWeights st.df2).1)) ((fitted res.data).filterMap DRow.weight) ∧
      ∃ lo hi, weightsMeta (usedRows (defaultWeights st.df2).1) = .range lo hi := by
  obtain ⟨hdate, hwt, -⟩ := stage_columns w args source df d st
  have hobs := observations_run w args source df res d hdata st
  have hrows : ((usedRows (defaultWeights st.df2).1).rows.filter hasY).filter posWeight = (defaultWeights st.df2).1.rows.filter fun r =>
      decide (r.y ≠ none ∧ ∃ w ∈ r.weight, 0 < w) := by
    unfold usedRows
    dsimp only
    rw [List.filter_filter, List.filter_filter]
    apply List.filter_congr
    intro r _
    unfold hasY posWeight
    rw [Bool.eq_iff_iff]
    cases r.y <;> cases r.weight <;> simp
  have hrows2 : (usedRows (defaultWeights st.df2).1).rows.filter hasY = (defaultWeights st.df2).1.rows.filter fun r =>
      decide (r.y ≠ none ∧ ∃ w ∈ r.weight, 0 < w) := by
    unfold usedRows
    dsimp only
    rw [List.filter_filter]
    apply List.filter_congr
    intro r _
    unfold hasY
    rw [Bool.eq_iff_iff]
    cases r.y <;> cases r.weight <;> simp
  have hfit : fitted res.data = ((defaultWeights st.df2).1.rows.filter fun r => decide (r.y ≠ none ∧ ∃ w ∈ r.weight, 0 < w)).map fun r =>
      flagData (bestKey w.srt st.fits.1) ⟨if (defaultWeights st.df2).1.hasDate then r.date else r.x, source, ⟨(defaultWeights st.df2).2, runFreq df, st.range⟩, "actuals", true,
        r.y, r.weight, false⟩ := by
    unfold fitted
    rw [hobs]
    unfold actualsClean
    rw [List.map_map, List.filter_map]
    rfl
  refine ⟨?_, ?_, ?_⟩
  · intro m rng hsc hr
    have hdates : (fitted res.data).map DRow.date = (((usedRows (defaultWeights st.df2).1).rows.filter hasY).filter posWeight).map
        (if df.hasDate then Row.date else Row.x) := by
      rw [hfit, hrows, List.map_map]
      apply List.map_congr_left
      intro r _
      cases hd : df.hasDate <;> simp [flagData, hdate, hd]
    rw [hdates]
    have huw : (usedRows (defaultWeights st.df2).1).hasWeight = true := hwt
    have hud : (usedRows (defaultWeights st.df2).1).hasDate = df.hasDate := hdate
    unfold rangeMeta prepare at hr
    rw [hud, huw] at hr
    cases hd : df.hasDate with
    | true =>
      rw [hd] at hr
      simp only [if_true] at hr ⊢
      cases h1 : listMin ((((usedRows (defaultWeights st.df2).1).rows.filter hasY).filter posWeight).map Row.date) with
      | none => rw [h1] at hr; cases hr
      | some a =>
        cases h2 : listMax ((((usedRows (defaultWeights st.df2).1).rows.filter hasY).filter posWeight).map Row.date) with
        | none => rw [h1, h2] at hr; cases hr
        | some b =>
          rw [h1, h2] at hr
          cases hr
          exact ⟨rfl, a, b, spanned_of _ a b h1 h2, falls_on_day a, falls_on_day b⟩
    | false =>
      rw [hd] at hr hsc
      have hns : ¬ (m.name = "logistic" ∨ m.name = "sigmoid") := by simpa [scaledNames] using hsc
      simp only [if_true, Bool.false_eq_true, if_false, if_neg hns] at hr ⊢
      cases h1 : listMin ((((usedRows (defaultWeights st.df2).1).rows.filter hasY).filter posWeight).map Row.x) with
      | none => rw [h1] at hr; cases hr
      | some a =>
        cases h2 : listMax ((((usedRows (defaultWeights st.df2).1).rows.filter hasY).filter posWeight).map Row.x) with
        | none => rw [h1, h2] at hr; cases hr
        | some b =>
          rw [h1, h2] at hr
          cases hr
          exact ⟨rfl, spanned_of _ a b h1 h2⟩
  · have hws : (fitted res.data).filterMap DRow.weight = ((usedRows (defaultWeights st.df2).1).rows.filter hasY).filterMap Row.weight := by
      rw [hfit, hrows2, List.filterMap_map]
      rfl
    rw [hws]
    have huw : (usedRows (defaultWeights st.df2).1).hasWeight = true := hwt
    unfold weightsMeta
    rw [huw]
    simp only [if_true]
    exact weights_say _
  · have huw : (usedRows (defaultWeights st.df2).1).hasWeight = true := hwt
    unfold weightsMeta
    rw [huw]
    exact ⟨_, _, rfl⟩

/-- The description of each fit of a run. -/
theorem long_each [FloorRing K] (w : World K) (args : RunArgs K) (source : String) (df : Frame K) (d : List (DRow K) × List (MRow K))
    (st : RunStages w args source df d) :
    (∀ r ∈ d.2, ∃ m ∈ st.cand.2, ∃ rng, rangeMeta m (prepare (usedRows (defaultWeights st.df2).1)) = .ok rng ∧
      r.long = ⟨weightsMeta (usedRows (defaultWeights st.df2).1), runFreq df, rng⟩ ∧ r.weights = (defaultWeights st.df2).2) ∧
    ∀ r ∈ d.1, r.isActuals = false → ∃ m ∈ st.cand.2, ∃ rng, rangeMeta m (prepare (usedRows (defaultWeights st.df2).1)) = .ok rng ∧
      r.long = ⟨weightsMeta (usedRows (defaultWeights st.df2).1), runFreq df, rng⟩ := by
  have hd1 : d.1 = _ := congrArg Prod.fst st.hd
  have hd2 : d.2 = _ := congrArg Prod.snd st.hd
  obtain ⟨hl, ha, hb⟩ := fitLoop_spec _ _ _ _ _ st.hFits
  constructor
  · intro r hr
    rw [hd2] at hr
    obtain ⟨q, hq, rfl⟩ := List.mem_map.1 hr
    obtain ⟨k, hk'⟩ := List.getElem?_of_mem hq
    have hlt : k < st.cand.2.length := by
      rw [← hl]
      exact (List.getElem?_eq_some_iff.1 hk').1
    obtain ⟨f, rows, e1, -, e2, -⟩ := ha k _ (List.getElem?_eq_getElem hlt)
    rw [hk'] at e2
    cases e2
    obtain ⟨e3, e4⟩ := fitModel_text _ _ _ _ _ _ e1
    refine ⟨_, List.getElem_mem hlt, f.range, e4, ?_⟩
    unfold flagMeta metaRow
    dsimp only
    rw [e3]
    exact ⟨rfl, rfl⟩
  · intro r hr hact
    rw [hd1] at hr
    obtain ⟨q, hq, rfl⟩ := List.mem_map.1 hr
    rcases List.mem_append.1 hq with hq | hq
    · unfold actualsClean at hq
      obtain ⟨q', -, rfl⟩ := List.mem_map.1 hq
      cases hact
    · obtain ⟨k, m, f, rows, e0, e1, e2, e3⟩ := hb q hq
      obtain ⟨e4, e5⟩ := fitModel_text _ _ _ _ _ _ e1
      refine ⟨m, List.mem_of_getElem? e0, f.range, e5, ?_⟩
      show q.long = _
      rw [(forecastRows_mem _ _ _ _ e2 q e3).2.2.2.2.1, e4]
      rfl

/-- Two models describe the range in the same way, with dates or if neither scales x. -/
theorem range_same (m m' : ForecastModel K) (df : Frame K) (h : df.hasDate = true ∨ (m.name ∉ scaledNames ∧ m'.name ∉ scaledNames)) :
    rangeMeta m (prepare df) = rangeMeta m' (prepare df) := by
  rcases h with h | ⟨h1, h2⟩
  · unfold rangeMeta prepare
    rw [h]
    rfl
  · have e1 : ¬ (m.name = "logistic" ∨ m.name = "sigmoid") := by simpa [scaledNames] using h1
    have e2 : ¬ (m'.name = "logistic" ∨ m'.name = "sigmoid") := by simpa [scaledNames] using h2
    unfold rangeMeta
    simp only [if_neg e1, if_neg e2]

theorem select_sub (b : Bool) (d : List (DRow K) × List (MRow K)) : (∀ r ∈ (selectFits b d).1, r ∈ d.1) ∧ ∀ r ∈ (selectFits b d).2, r ∈ d.2 := by
  unfold selectFits
  cases b
  · exact ⟨fun r hr => (List.mem_filter.1 hr).1, fun r hr => (List.mem_filter.1 hr).1⟩
  · exact ⟨fun r hr => hr, fun r hr => hr⟩

/-- **C95** (metadata). Every row of the metadata names the frequency detected for the whole series; its weights column tells the weights of all
observations after the starting date and is the text 1 exactly without a weight column and without search for outliers; its long label tells the weights and
(for series with dates) the days of the samples that models were fitted to. -/
theorem C95_metadata [FloorRing K] [IsStrictOrderedRing K] (w : World K) (args : RunArgs K) (source : String) (df : Frame K) (res : RunResult K)
    (h : runSingle w args source df = .ok res) (r : MRow K) (hr : r ∈ res.metadata) :
    r.source = source ∧ r.long.freq = (if df.hasDate then detectFreq (df.rows.map Row.date) else none) ∧
      (df.hasDate = true → RangeSays true r.long.range ((fitted res.data).map DRow.date)) ∧
      WeightsSay r.long.weights ((fitted res.data).filterMap DRow.weight) ∧ WeightsSay r.weights ((observedRows res.data).filterMap DRow.weight) ∧
      (r.weights = .one ↔ df.hasWeight = false ∧ args.findOutliers = false) := by
  have hsrc := (run_sources w args source df res h).2 r hr
  obtain ⟨d, hd, hdata, hmeta, -⟩ := runSingle_inv w args source df res h
  obtain ⟨st⟩ := runFits_stages w args source df d hd
  rw [hmeta] at hr
  obtain ⟨m, -, rng, hrng, e1, e2⟩ := (long_each w args source df d st).1 r ((select_sub _ d).2 r hr)
  obtain ⟨u1, u2, -⟩ := used_text w args source df res d hdata st
  obtain ⟨c1, c2, c3⟩ := stage_columns w args source df d st
  refine ⟨hsrc, by rw [e1]; rfl, ?_, by rw [e1]; exact u2, ?_, by rw [e2]; exact c3⟩
  · intro hdt
    rw [e1]
    have := u1 m rng (.inl hdt) hrng
    rwa [hdt] at this
  · rw [e2, observations_run w args source df res d hdata st]
    have hws : ((actualsClean (defaultWeights st.df2).1 source ⟨(defaultWeights st.df2).2, runFreq df, st.range⟩).map
        (flagData (bestKey w.srt st.fits.1))).filterMap DRow.weight = (defaultWeights st.df2).1.rows.filterMap Row.weight := by
      unfold actualsClean
      rw [List.map_map, List.filterMap_map]
      rfl
    rw [hws]
    unfold defaultWeights
    by_cases hw2 : st.df2.hasWeight = true
    · rw [if_pos hw2]
      exact weights_say _
    · rw [if_neg hw2]
      intro v hv
      obtain ⟨q, hq, e⟩ := List.mem_filterMap.1 hv
      obtain ⟨q', -, rfl⟩ := List.mem_map.1 hq
      exact (Option.some.inj e).symm

/-- **C95** (metadata, series without dates). The long label tells the smallest and largest x of the samples that models were fitted to, if no candidate is a
model whose x is scaled. -/
theorem C95_undated_partial [FloorRing K] [IsStrictOrderedRing K] (w : World K) (args : RunArgs K) (source : String) (df : Frame K) (res : RunResult K)
    (h : runSingle w args source df = .ok res) (hd : df.hasDate = false)
    (hsc : ∀ df' freq cand, candidates w.ch args.models df' freq = .ok cand → ∀ m ∈ cand.2, m.name ∉ scaledNames)
    (r : MRow K) (hr : r ∈ res.metadata) : RangeSays false r.long.range ((fitted res.data).map DRow.date) := by
  obtain ⟨d, hd', hdata, hmeta, -⟩ := runSingle_inv w args source df res h
  obtain ⟨st⟩ := runFits_stages w args source df d hd'
  rw [hmeta] at hr
  obtain ⟨m, hm, rng, hrng, e1, -⟩ := (long_each w args source df d st).1 r ((select_sub _ d).2 r hr)
  have := (used_text w args source df res d hdata st).1 m rng (.inr (hsc _ _ _ st.hCand m hm)) hrng
  rw [hd] at this
  rwa [e1]

/-- **C95** (observations). The long label of every observation names the frequency of the whole series, the weights of all observations (as the weights
column of the metadata) and the range of all observations. -/
theorem C95_observations [FloorRing K] [IsStrictOrderedRing K] (w : World K) (args : RunArgs K) (source : String) (df : Frame K) (res : RunResult K)
    (h : runSingle w args source df = .ok res) (r : DRow K) (hr : r ∈ res.data) (ha : r.isActuals = true) :
    r.long.freq = (if df.hasDate then detectFreq (df.rows.map Row.date) else none) ∧
      RangeSays df.hasDate r.long.range ((observedRows res.data).map DRow.date) ∧ ∀ m ∈ res.metadata, r.long.weights = m.weights := by
  obtain ⟨d, hd, hdata, hmeta, -⟩ := runSingle_inv w args source df res h
  obtain ⟨st⟩ := runFits_stages w args source df d hd
  obtain ⟨c1, c2, c3⟩ := stage_columns w args source df d st
  have hobs := observations_run w args source df res d hdata st
  have hmem : r ∈ observedRows res.data := List.mem_filter.2 ⟨hr, ha⟩
  have hdates : (observedRows res.data).map DRow.date = axisOf (defaultWeights st.df2).1 := by
    rw [hobs]
    unfold actualsClean axisOf
    rw [List.map_map, List.map_map]
    cases (defaultWeights st.df2).1.hasDate <;> rfl
  rw [hobs] at hmem
  obtain ⟨q, hq, rfl⟩ := List.mem_map.1 hmem
  unfold actualsClean at hq
  obtain ⟨q', -, rfl⟩ := List.mem_map.1 hq
  refine ⟨rfl, ?_, ?_⟩
  · rw [hdates]
    show RangeSays df.hasDate st.range _
    have h0 := st.hRange
    unfold runRange at h0
    cases h1 : listMin (axisOf (defaultWeights st.df2).1) with
    | none => rw [h1] at h0; cases h0
    | some a =>
      cases h2 : listMax (axisOf (defaultWeights st.df2).1) with
      | none => rw [h1, h2] at h0; cases h0
      | some b =>
        rw [h1, h2, c1] at h0
        dsimp only at h0
        cases hdt : df.hasDate with
        | true =>
          rw [hdt] at h0
          rw [← Except.ok.inj h0]
          exact ⟨rfl, a, b, spanned_of _ a b h1 h2, falls_on_day a, falls_on_day b⟩
        | false =>
          rw [hdt] at h0
          rw [← Except.ok.inj h0]
          exact ⟨rfl, spanned_of _ a b h1 h2⟩
  · intro m hm
    rw [hmeta] at hm
    obtain ⟨-, -, -, -, -, e⟩ := (long_each w args source df d st).1 m ((select_sub _ d).2 m hm)
    exact e.symm

/-- **C95** (forecasts). All forecasts of a series and all rows of its metadata carry the same long label if the series has dates or no candidate is a model
whose x is scaled. -/
theorem C95_forecasts_partial [FloorRing K] (w : World K) (args : RunArgs K) (source : String) (df : Frame K) (res : RunResult K)
    (h : runSingle w args source df = .ok res)
    (hsc : df.hasDate = true ∨ ∀ df' freq cand, candidates w.ch args.models df' freq = .ok cand → ∀ m ∈ cand.2, m.name ∉ scaledNames)
    (r : DRow K) (hr : r ∈ res.data) (ha : r.isActuals = false) (m : MRow K) (hm : m ∈ res.metadata) :
    r.long = m.long := by
  obtain ⟨d, hd, hdata, hmeta, -⟩ := runSingle_inv w args source df res h
  obtain ⟨st⟩ := runFits_stages w args source df d hd
  obtain ⟨hml, hdl⟩ := long_each w args source df d st
  rw [hmeta] at hm
  rw [hdata] at hr
  obtain ⟨m1, h1, rng1, e1, e2, -⟩ := hml m ((select_sub _ d).2 m hm)
  obtain ⟨m2, h2, rng2, e3, e4⟩ := hdl r ((select_sub _ d).1 r hr) ha
  have hsame := range_same m1 m2 (usedRows (defaultWeights st.df2).1) (hsc.imp (fun hdt => (stage_date w args source df d st).trans hdt) fun hc => ⟨hc _ _ _ st.hCand m1 h1, hc _ _ _ st.hCand m2 h2⟩)
  rw [e1, e3] at hsame
  rw [e2, e4, Except.ok.inj hsame]

/-- **C95** (one label). Observations and forecasts carry the same long label if the input has dates and weights, all samples after the starting date have a value
and a positive weight, and no outliers are searched. -/
theorem C95_label_partial [FloorRing K] [IsStrictOrderedRing K] (w : World K) (args : RunArgs K) (source : String) (df : Frame K) (res : RunResult K)
    (h : runSingle w args source df = .ok res) (hdt : df.hasDate = true) (hwt : df.hasWeight = true) (hfo : args.findOutliers = false)
    (hall : ∀ r ∈ kept args.start df, r.y ≠ none ∧ ∃ v, r.weight = some v ∧ 0 < v) (r r' : DRow K) (hr : r ∈ res.data) (hr' : r' ∈ res.data) :
    r.long = r'.long := by
  obtain ⟨d, hd, hdata, -, -⟩ := runSingle_inv w args source df res h
  obtain ⟨st⟩ := runFits_stages w args source df d hd
  obtain ⟨-, hdl⟩ := long_each w args source df d st
  have hdf2 : st.df2 = { df with rows := kept args.start df } := by
    have h0 := st.hOut
    unfold applyOutliers at h0
    rw [hfo] at h0
    simp only [Bool.false_eq_true, if_false, Except.ok.injEq] at h0
    rw [← h0, filterStart_rows]
  have hdef : defaultWeights st.df2 = (st.df2, .range (listMin (st.df2.rows.filterMap Row.weight)) (listMax (st.df2.rows.filterMap Row.weight))) := by
    unfold defaultWeights
    rw [if_pos (by rw [hdf2]; exact hwt)]
  have hu : (usedRows st.df2) = st.df2 := by
    unfold usedRows
    rw [hdf2]
    dsimp only
    congr 1
    rw [List.filter_eq_self]
    intro q hq
    obtain ⟨-, v, hv, hpos⟩ := hall q hq
    rw [decide_eq_true_iff]
    exact ⟨v, hv, hpos⟩
  have hy : st.df2.rows.filter hasY = st.df2.rows := by
    rw [hdf2, List.filter_eq_self]
    intro q hq
    have := (hall q hq).1
    unfold hasY
    cases hqy : q.y with
    | none => exact absurd hqy this
    | some v => rfl
  have hp : st.df2.rows.filter posWeight = st.df2.rows := by
    rw [hdf2, List.filter_eq_self]
    intro q hq
    obtain ⟨-, v, hv, hpos⟩ := hall q hq
    unfold posWeight
    rw [hv]
    exact decide_eq_true hpos
  have hw2 : st.df2.hasWeight = true := by rw [hdf2]; exact hwt
  have hd2 : st.df2.hasDate = true := by rw [hdf2]; exact hdt
  have hrange : ∀ m rng, rangeMeta m (prepare (usedRows (defaultWeights st.df2).1)) = .ok rng → st.range = rng := by
    intro m rng hrng
    have h0 := st.hRange
    rw [hdef] at h0 hrng
    dsimp only at h0 hrng
    rw [hu] at hrng
    unfold runRange axisOf at h0
    unfold rangeMeta prepare at hrng
    rw [hd2] at h0 hrng
    rw [hw2, hy] at hrng
    simp only [if_true] at h0 hrng
    rw [hp] at hrng
    cases h1 : listMin (st.df2.rows.map Row.date) with
    | none => rw [h1] at h0; cases h0
    | some a =>
      cases h2 : listMax (st.df2.rows.map Row.date) with
      | none => rw [h1, h2] at h0; cases h0
      | some b =>
        rw [h1, h2] at h0 hrng
        exact (Except.ok.inj h0).symm.trans (Except.ok.inj hrng)
  have hwm : weightsMeta (usedRows (defaultWeights st.df2).1) = (defaultWeights st.df2).2 := by
    rw [hdef]
    dsimp only
    rw [hu]
    unfold weightsMeta
    rw [hw2, hy]
    rfl
  have key : ∀ q ∈ res.data, q.long = ⟨(defaultWeights st.df2).2, runFreq df, st.range⟩ := by
    intro q hq
    cases ha : q.isActuals with
    | false =>
      rw [hdata] at hq
      obtain ⟨m, -, rng, e1, e2⟩ := hdl q ((select_sub _ d).1 q hq) ha
      rw [e2, hwm, hrange m rng e1]
    | true =>
      have hmem : q ∈ observedRows res.data := List.mem_filter.2 ⟨hq, ha⟩
      rw [observations_run w args source df res d hdata st] at hmem
      obtain ⟨q1, hq1, rfl⟩ := List.mem_map.1 hmem
      unfold actualsClean at hq1
      obtain ⟨q2, -, rfl⟩ := List.mem_map.1 hq1
      rfl
  rw [key r hr, key r' hr']

/-- **C95 refuted** (one label) For input without weights (and without search for outliers) the long label of an observation is never that of a forecast: the
weights of the observations are called 1, those of the forecasts 1-1. -/
theorem C95_counterexample_unweighted [FloorRing K] [IsStrictOrderedRing K] (w : World K) (args : RunArgs K) (source : String) (df : Frame K) (res : RunResult K)
    (h : runSingle w args source df = .ok res) (hwt : df.hasWeight = false) (hfo : args.findOutliers = false) (r r' : DRow K) (hr : r ∈ res.data)
    (hr' : r' ∈ res.data) (ha : r.isActuals = true) (ha' : r'.isActuals = false) : r.long ≠ r'.long := by
  obtain ⟨d, hd, hdata, -, -⟩ := runSingle_inv w args source df res h
  obtain ⟨st⟩ := runFits_stages w args source df d hd
  obtain ⟨-, hdl⟩ := long_each w args source df d st
  obtain ⟨-, -, c3⟩ := stage_columns w args source df d st
  obtain ⟨-, -, lo, hi, hu⟩ := used_text w args source df res d hdata st
  have h1 : r'.long.weights = .range lo hi := by
    rw [hdata] at hr'
    obtain ⟨-, -, rng, -, e⟩ := hdl r' ((select_sub _ d).1 r' hr') ha'
    rw [e]
    exact hu
  have h2 : r.long.weights = .one := by
    have hmem : r ∈ observedRows res.data := List.mem_filter.2 ⟨hr, ha⟩
    rw [observations_run w args source df res d hdata st] at hmem
    obtain ⟨q1, hq1, rfl⟩ := List.mem_map.1 hmem
    unfold actualsClean at hq1
    obtain ⟨q2, -, rfl⟩ := List.mem_map.1 hq1
    exact c3.2 ⟨hwt, hfo⟩
  intro he
  rw [he, h1] at h2
  cases h2

/-- A run without weights: observations and forecasts of one series have two labels. -/
theorem C95_counterexample : ∃ (w : World ℚ) (args : RunArgs ℚ) (res : RunResult ℚ), runSingle w args "src" demoFrame = .ok res ∧
    ∃ r ∈ res.data, ∃ r' ∈ res.data, r.source = r'.source ∧ r.long ≠ r'.long := by
  have key : ((runSingle demoWorld (demoArgs [modelLinear] (some [])) "src" demoFrame).toOption.map fun res =>
      res.data.map fun r => (decide (r.long.weights = .one), decide (r.source = "src"))) =
      some (List.replicate 6 (true, true) ++ List.replicate 9 (false, true)) := by decide +kernel
  cases hres : runSingle demoWorld (demoArgs [modelLinear] (some [])) "src" demoFrame with
  | error e => rw [hres] at key; cases key
  | ok res =>
    rw [hres] at key
    have key' : res.data.map (fun r => (decide (r.long.weights = .one), decide (r.source = "src"))) =
        List.replicate 6 (true, true) ++ List.replicate 9 (false, true) := Option.some.inj key
    have h1 : (true, true) ∈ res.data.map (fun r => (decide (r.long.weights = .one), decide (r.source = "src"))) := by rw [key']; decide
    have h2 : (false, true) ∈ res.data.map (fun r => (decide (r.long.weights = .one), decide (r.source = "src"))) := by rw [key']; decide
    obtain ⟨r, hr, e⟩ := List.mem_map.1 h1
    obtain ⟨r', hr', e'⟩ := List.mem_map.1 h2
    simp only [Prod.mk.injEq, decide_eq_true_eq, decide_eq_false_iff_not] at e e'
    refine ⟨_, _, res, hres, r, hr, r', hr', e.2.trans e'.2.symm, ?_⟩
    intro he
    rw [he] at e
    exact e'.1 e.1

/-- With a line as the only candidate no x is scaled. -/
example : ∀ df' freq cand, candidates demoWorld.ch (demoArgs [modelLinear] (some [])).models df' freq = .ok cand → ∀ m ∈ cand.2, m.name ∉ scaledNames := by
  intro df' freq cand h m hm
  have e : candidates demoWorld.ch (demoArgs [modelLinear] (some [])).models df' freq = .ok (.add, [modelLinear]) := rfl
  rw [e] at h
  cases h
  rw [List.mem_singleton.1 hm]
  decide

/-- A line and a model called sigmoid, fitted to the same series without dates. -/
def scaledRun : Res (RunResult ℚ) :=
  runSingle demoWorld { demoArgs [modelLinear, { modelConstant with name := "sigmoid" }] (some []) with includeAll := true } "src" { demoFrame with hasDate := false }

/-- **C95 refuted** (forecasts, series without dates): next to a model called sigmoid, whose x is divided by 100 in the label, the fits of a series do not have
one label. -/
theorem C95_counterexample_scaled : ∃ (w : World ℚ) (args : RunArgs ℚ) (df : Frame ℚ) (res : RunResult ℚ), runSingle w args "src" df = .ok res ∧
    ∃ r ∈ res.data, r.isActuals = false ∧ ∃ m ∈ res.metadata, r.source = m.source ∧ r.long ≠ m.long := by
  have key : (scaledRun.toOption.map fun res => (res.metadata.map fun m => (m.source, m.long.range), (res.data.filter fun r => !r.isActuals).map fun r => (r.source, r.long.range))) =
      some ([("src", .xs 0 5), ("src", .hundredths 0 5)], List.replicate 6 ("src", .xs 0 5) ++ List.replicate 6 ("src", .hundredths 0 5)) := by decide +kernel
  cases hres : scaledRun with
  | error e => rw [hres] at key; cases key
  | ok res =>
    rw [hres] at key
    have key' := Prod.mk.inj (Option.some.inj key)
    have h1 : ("src", RangeMeta.hundredths 0 5) ∈ res.metadata.map fun m => (m.source, m.long.range) := by rw [key'.1]; decide
    have h2 : ("src", RangeMeta.xs 0 5) ∈ (res.data.filter fun r => !r.isActuals).map fun r => (r.source, r.long.range) := by rw [key'.2]; decide
    obtain ⟨m, hm, e⟩ := List.mem_map.1 h1
    obtain ⟨r, hr, e'⟩ := List.mem_map.1 h2
    obtain ⟨hr, ha⟩ := List.mem_filter.1 hr
    simp only [Prod.mk.injEq] at e e'
    refine ⟨_, _, _, res, hres, r, hr, by simpa using ha, m, hm, e'.1.trans e.1.symm, ?_⟩
    intro he
    rw [he, e.2] at e'
    cases e'.2

/-- Days 0 to 5, the first sample with weight 0: the label of the fits starts on day 1, that of the observations on day 0. -/
example : ((runSingle demoWorld (demoArgs [modelLinear] (some [])) "src"
    { demoFrame with hasWeight := true, rows := demoFrame.rows.map fun r => { r with weight := some (if r.x = 0 then 0 else 2) } }).toOption.map fun res =>
      (res.metadata.map (fun m => m.long), (res.data.take 1).map fun r => r.long)) =
    some ([⟨.range (some 2) (some 2), some .D, .days 1 5⟩], [⟨.range (some 0) (some 2), some .D, .days 0 5⟩]) := by decide +kernel

end Anticipy
