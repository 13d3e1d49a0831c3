import Verif.Props.TableSeries
import Verif.Props.Conditions
import Verif.Props.Descriptions
import Verif.Props.LoneOutlierRuns
import Verif.Props.SeriesTable

/-
Results on single series, stated for each series of a table: C35, C40, C43, C48, C71, C93, C95.
-/
namespace Anticipy
open Spec
variable {K : Type} [Field K] [LinearOrder K] [FloorRing K] [IsStrictOrderedRing K]

/-- The result for each series of a table, whatever its columns, is the result of a run on a series with its rows, sorted by x. -/
theorem each_series (w : World K) (args : RunArgs K) (id : String) (t : STable K) (res : RunResult K) (h : runForecast w args id t = .ok (some res)) (s : String)
    (hm : IsSeries t id s) :
    ∃ df : Frame K, df.hasDate = t.hasDate ∧ df.hasWeight = t.hasWeight ∧
      (df.rows.map fun r => (r.date, r.y, r.weight)).Perm ((rowsOf t s).map fun r => (r.date, r.y, r.weight)) ∧
      (df.rows.Pairwise fun a b => a.x ≤ b.x) ∧ (t.hasX = true → (df.rows.map Row.x).Perm ((rowsOf t s).map SRow.x)) ∧
      runSingle w args s df = .ok (partOf t s res) := by
  unfold IsSeries rowsOf partOf at *
  have hn : ∃ t', normalizeDf w.srt t = .ok (some t') := by
    cases hn : normalizeDf w.srt t with
    | error e => unfold runForecast at h; rw [hn] at h; cases h
    | ok o =>
      cases o with
      | none => unfold runForecast at h; rw [hn] at h; cases h
      | some t' => exact ⟨t', rfl⟩
  obtain ⟨t', hn⟩ := hn
  obtain ⟨c1, c2, -, c3, c4, c5⟩ := C26_samples w.srt t t' hn
  obtain ⟨o1, o2⟩ := C27_sorted w.srt t t' hn
  cases hs : t.hasSource with
  | true =>
    rw [hs] at hm c1 c2
    have h1 := C47_independent w args id t hs res h s hm
    rw [runForecast_only w args id t t' hs hn s hm] at h1
    refine ⟨frameOf t' (sourcePart t'.rows (some s)), c3, c5, ?_, ?_, ?_, ?_⟩
    · have := c1.filter (fun q => decide (q.2.1 = some s))
      have := this.map fun q => (q.1, q.2.2.1, q.2.2.2)
      unfold samples labelled at this
      simp only [List.filter_map, List.map_map, List.filter_filter] at this
      refine Eq.mp ?_ this
      congr 1
      · unfold frameOf sourcePart
        simp only [List.map_map]
        congr 1
        apply List.filter_congr
        intro r _
        simp
      · unfold only
        dsimp only
        congr 1
        apply List.filter_congr
        intro r _
        by_cases hr : r.source = some s <;> simp [hr]
    · unfold frameOf
      dsimp only
      rw [List.pairwise_map]
      have := (o1 hs).filter (fun r => decide (r.source = some s ∧ (some s : Option String) ≠ none))
      unfold sourcePart
      refine List.Pairwise.imp_of_mem ?_ this
      intro a b ha hb hab
      obtain ⟨p, q, e1, e2, e3⟩ := hab
      have ha' := (of_decide_eq_true (List.mem_filter.1 ha).2).1
      have hb' := (of_decide_eq_true (List.mem_filter.1 hb).2).1
      rw [e1] at ha'
      rw [e2] at hb'
      cases ha'
      cases hb'
      rcases e3 with e3 | e3
      · exact absurd e3 (lt_irrefl _)
      · exact e3.2
    · intro hx
      have := ((c2 hx).filter (fun q => decide (q.source = some s))).map SRow.x
      unfold labelled at this
      rw [List.filter_filter] at this
      refine Eq.mp ?_ this
      congr 1
      · unfold frameOf sourcePart
        simp only [List.map_map]
        congr 1
        apply List.filter_congr
        intro r _
        simp
      · unfold only
        dsimp only
        congr 1
        apply List.filter_congr
        intro r _
        by_cases hr : r.source = some s <;> simp [hr]
    · cases hr : runSingle w args s (frameOf t' (sourcePart t'.rows (some s))) with
      | error e => rw [hr] at h1; cases h1
      | ok r => rw [hr] at h1; cases h1; rfl
  | false =>
    rw [hs] at hm c1 c2
    obtain ⟨rfl, hne⟩ := hm
    refine ⟨frameOf t' t'.rows, c3, c5, ?_, ?_, ?_, ?_⟩
    · have := c1.map fun q => (q.1, q.2.2.1, q.2.2.2)
      unfold samples labelled at this
      simpa [frameOf, Function.comp_def] using this
    · unfold frameOf
      dsimp only
      rw [List.pairwise_map]
      exact o2 hs
    · intro hx
      have := (c2 hx).map SRow.x
      unfold labelled at this
      simpa [frameOf, Function.comp_def] using this
    · unfold runForecast at h
      rw [hn] at h
      simp only [bind, Except.bind, c4, hs, Bool.false_eq_true, if_false] at h
      cases hr : runSingle w args s (frameOf t' t'.rows) with
      | error e => rw [hr] at h; cases h
      | ok r => rw [hr] at h; cases h; rfl

/-! ### C35 -/

/-- **C35, tables.** Among the metadata of each series, only one model is marked as best. If all fits are requested and one succeeded, a fitted model
is marked and no fitted model of that series has a better score; if model names are different, exactly one row is marked. -/
theorem C35_series (w : World K) (args : RunArgs K) (id : String) (t : STable K) (res : RunResult K) (h : runForecast w args id t = .ok (some res)) (s : String)
    (hm : IsSeries t id s) :
    (∀ r ∈ (partOf t s res).metadata, ∀ r' ∈ (partOf t s res).metadata, r.isBest = true → r'.isBest = true → r.model = r'.model ∧ r.long = r'.long) ∧
    (args.includeAll = true → (∃ r ∈ (partOf t s res).metadata, r.isFit = true) →
      ∃ b ∈ (partOf t s res).metadata, b.isBest = true ∧ b.isFit = true ∧ ∀ q ∈ (partOf t s res).metadata, q.isFit = true → ¬ Better q.aic b.aic) ∧
    (args.includeAll = true → ((partOf t s res).metadata.map MRow.model).Nodup →
      ((partOf t s res).metadata.filter MRow.isBest).length = if (partOf t s res).metadata.any MRow.isFit then 1 else 0) := by
  obtain ⟨df, -, -, -, -, -, hr⟩ := each_series w args id t res h s hm
  exact ⟨fun r h1 r' h2 h3 h4 => C35_one_model w args s df _ hr r r' h1 h2 h3 h4, fun h1 h2 => C35_lowest w args s df _ h1 hr h2,
    fun h1 h2 => C35_unique w args s df _ h1 hr h2⟩

/-! ### C43 -/

/-- **C43, tables.** Intervals of each series of a table are ordered and complete. -/
theorem C43_series (w : World K) (args : RunArgs K) (id : String) (t : STable K) (res : RunResult K) (h : runForecast w args id t = .ok (some res)) (s : String)
    (hm : IsSeries t id s) (r : PRow K) (hr : r ∈ (partOf t s res).forecast) :
    Ordered r ∧ (r.isActuals = true → r.q = []) ∧
    (r.isActuals = false → ∀ p ∈ [args.q1, 100 - args.q1, args.q2, 100 - args.q2], ∃ v, (p, some v) ∈ r.q) := by
  obtain ⟨df, -, -, -, -, -, e⟩ := each_series w args id t res h s hm
  exact C43_run w args s df _ e r hr

/-! ### C40 and C48 -/

/-- The rows of the series on or after the starting date. -/
theorem kept_rows (start : Option Timestamp) (df : Frame K) (hd : df.hasDate = true) (t : STable K) (s : String)
    (hp : (df.rows.map fun r => (r.date, r.y, r.weight)).Perm ((rowsOf t s).map fun r => (r.date, r.y, r.weight))) :
    ((kept start df).map fun r => (r.date, r.y, r.weight)).Perm
      (((rowsOf t s).filter fun r => decide (∀ d, start = some d → d ≤ r.date)).map fun r => (r.date, r.y, r.weight)) := by
  have := hp.filter (fun q => decide (∀ d, start = some d → d ≤ q.1))
  simp only [List.filter_map] at this
  unfold kept
  refine Eq.mp ?_ this
  congr 2
  apply List.filter_congr
  intro r _
  cases start with
  | none => simp
  | some d => simp [hd]

/-- **C40, C48, tables.** The observations that are reported for a series of a dated table are exactly its rows on or after the starting date, with their
values; without search for outliers also with their weights, or 1 if there are no weights. -/
theorem C48_table (w : World K) (args : RunArgs K) (id : String) (t : STable K) (res : RunResult K) (h : runForecast w args id t = .ok (some res)) (s : String)
    (hm : IsSeries t id s) (hd : t.hasDate = true) :
    (((partOf t s res).data.filter DRow.isActuals).map fun r => (r.date, r.y)).Perm
      (((rowsOf t s).filter fun r => decide (∀ d, args.start = some d → d ≤ r.date)).map fun r => (r.date, r.y)) ∧
    (args.findOutliers = false → (((partOf t s res).data.filter DRow.isActuals).map fun r => (r.date, r.y, r.weight)).Perm
      (((rowsOf t s).filter fun r => decide (∀ d, args.start = some d → d ≤ r.date)).map fun r =>
        (r.date, r.y, if t.hasWeight then r.weight else some 1))) := by
  obtain ⟨df, e1, e2, e3, -, -, hr⟩ := each_series w args id t res h s hm
  rw [hd] at e1
  have hk := kept_rows args.start df e1 t s e3
  constructor
  · rw [C48_actuals w args s df _ hr]
    have := hk.map fun q => (q.1, q.2.1)
    simp only [List.map_map] at this
    refine Eq.mp ?_ this
    congr 1
    apply List.map_congr_left
    intro r _
    simp [position, e1]
  · intro hf
    obtain ⟨spike, h1, -, h2, h3⟩ := C40_weights w args s df _ hr
    rw [h3]
    have := hk.map fun q => (q.1, q.2.1, if t.hasWeight then q.2.2 else some 1)
    simp only [List.map_map] at this
    refine Eq.mp ?_ this
    congr 1
    apply List.ext_getElem?
    intro k
    rw [List.getElem?_map, List.getElem?_zipWith]
    by_cases hk : k < (kept args.start df).length
    · rw [List.getElem?_eq_getElem hk, List.getElem?_eq_getElem (show k < spike.length by omega)]
      have hb := h2 hf spike[k] (List.getElem_mem _)
      simp only [Option.map_some, Function.comp, position, givenWeight, e1, e2, if_true, hb, Bool.false_eq_true, if_false, Option.map_id']
    · rw [List.getElem?_eq_none (by omega), List.getElem?_eq_none (by omega)]
      rfl

/-- **C48, tables.** The table `forecast` of each series: the predictions are those of the chosen model in the table `data`, and all rows carry the label
of the series. -/
theorem C48_table_forecast (w : World K) (args : RunArgs K) (id : String) (t : STable K) (res : RunResult K) (h : runForecast w args id t = .ok (some res))
    (s : String) (hm : IsSeries t id s) :
    (∀ r ∈ (partOf t s res).forecast, r.source = some s) ∧
    (∀ r ∈ (partOf t s res).forecast, r.isActuals = false →
      ∃ f ∈ (partOf t s res).data, f.isActuals = false ∧ f.isBest = true ∧ plain r = forecastOf f) ∧
    (Comparable (partOf t s res).data → ((partOf t s res).forecast.map plain).Perm
      (((partOf t s res).data.filter fun r => if r.isActuals then r.y.isSome else r.isBest).map forecastOf)) := by
  obtain ⟨df, -, -, -, -, -, e⟩ := each_series w args id t res h s hm
  obtain ⟨-, h2, h3⟩ := C48_forecast_rows w args s df _ e
  exact ⟨h2, h3, fun hc => C48_forecast_complete w args s df _ e hc⟩

/-! ### C71 -/

/-- **C71, tables.** If a model with a weekly season gives a prediction for a series of a dated table, the rows of the series on or after the starting date
that can be used fall on all seven weekdays. -/
theorem C71_table (wd : Int → Int) (hw : IsWeek wd) (w : World K) (args : RunArgs K) (id : String) (t : STable K) (res : RunResult K)
    (h : runForecast w args id t = .ok (some res)) (s : String) (hm : IsSeries t id s) (hd : t.hasDate = true) (name : String)
    (hcand : ∀ df' freq cand, candidates w.ch args.models df' freq = .ok cand → ∀ m ∈ cand.2, m.name = name →
      Contains modelSeasonWday m ∧ ∀ u ∈ m.validators, u.id = (validateSeasonWday : Validator K).id → u = validateSeasonWday)
    (r : DRow K) (hr : r ∈ (partOf t s res).data) (hact : r.isActuals = false) (hname : r.model = name) (d : Int) (h0 : 0 ≤ d) (h6 : d ≤ 6) :
    ∃ q ∈ rowsOf t s, (∀ d, args.start = some d → d ≤ q.date) ∧ q.y ≠ none ∧ (t.hasWeight = true → ∃ v, q.weight = some v ∧ 0 < v) ∧
      wd (q.date / (24 * 60 * 60 * 1000000000)) = d := by
  obtain ⟨df, e1, e2, e3, -, -, e⟩ := each_series w args id t res h s hm
  rw [hd] at e1
  have hk := kept_rows args.start df e1 t s e3
  obtain ⟨-, hall⟩ := C71_run wd hw w args s df _ e name (fun df' cand hc => hcand df' _ cand hc) r hr hact hname
  obtain ⟨q, hq, hu, hwd⟩ := hall d h0 h6
  have hq' : (q.date, q.y, q.weight) ∈ (kept args.start df).map fun r => (r.date, r.y, r.weight) := List.mem_map.2 ⟨q, hq, rfl⟩
  rw [hk.mem_iff] at hq'
  obtain ⟨q', hq', e⟩ := List.mem_map.1 hq'
  simp only [Prod.mk.injEq] at e
  obtain ⟨hin, hst⟩ := List.mem_filter.1 hq'
  refine ⟨q', hin, of_decide_eq_true hst, ?_, ?_, ?_⟩
  · rw [e.2.1]
    obtain ⟨v, hv⟩ := hu.1
    rw [hv]
    simp
  · intro htw
    rw [e.2.2]
    exact hu.2 (by rw [← htw, ← e2])
  · rw [e.1]
    exact hwd

/-! ### C93 -/

/-- **C93, tables.** A run that searches for outliers on a table without weights: a series that is level except for one sample, neither the first nor one of
the last two, keeps weight 1 for all samples but that one, which gets weight 0. -/
theorem C93_table_partial (w : World K) (args : RunArgs K) (id : String) (t : STable K) (hp : Proper t) (res : RunResult K)
    (h : runForecast w args id t = .ok (some res)) (s : String) (hm : IsSeries t id s) (hsearch : args.findOutliers = true) (hstart : args.start = none)
    (hw : t.hasWeight = false) (a b : K) (hab : b ≠ a) (i j : Nat) (hi : 1 ≤ i) (hj : 2 ≤ j) (hn : 6 ≤ i + j)
    (hv : (sortBy (fun a b => decide (a.date ≤ b.date)) (rowsOf t s)).map SRow.y = (loneSpike a b i j).map some) :
    ((partOf t s res).data.filter DRow.isActuals).map DRow.date = (sortBy (fun a b => decide (a.date ≤ b.date)) (rowsOf t s)).map SRow.date ∧
    ((partOf t s res).data.filter DRow.isActuals).map DRow.weight = (loneSpike (1 : K) 0 i j).map some := by
  obtain ⟨hser, hrun⟩ := series_run w id t hp s hm
  have hr := hrun args res h
  have hord : InTimeOrder (seriesFrame t s) := by
    refine ⟨rfl, ?_⟩
    rw [List.pairwise_map]
    refine List.Pairwise.imp_of_mem ?_ hser.sorted
    intro p q hp hq hpq
    have e1 := hser.days p hp
    have e2 := hser.days q hq
    omega
  have hval : HasValues (seriesFrame t s) (loneSpike a b i j) := by
    unfold HasValues
    rw [← hv]
    simp [seriesFrame]
  refine ⟨?_, C93_run_partial w args s _ _ hr hsearch hstart hw hord a b hab i j hval hi hj hn⟩
  have h2 := congrArg (List.map Prod.fst) (C48_actuals w args s _ _ hr)
  rw [List.map_map, List.map_map] at h2
  refine Eq.trans ?_ (h2.trans ?_)
  · rfl
  · unfold kept
    rw [hstart]
    simp [seriesFrame, position]

/-! ### C95 -/

theorem detectFreq_perm (l l' : List Timestamp) (h : l.Perm l') : detectFreq l = detectFreq l' := by
  have e : sortBy (fun a b : Timestamp => decide (a ≤ b)) l = sortBy (fun a b : Timestamp => decide (a ≤ b)) l' := by
    refine List.Perm.eq_of_pairwise (le := fun a b => decide (a ≤ b) = true) ?_ ?_ ?_ ?_
    · intro a b _ _ h1 h2
      exact le_antisymm (of_decide_eq_true h1) (of_decide_eq_true h2)
    · refine sortBy_sorted _ ?_ ?_ l
      · intro a b c h1 h2
        simp only [decide_eq_true_eq] at h1 h2 ⊢
        omega
      · intro a b
        simp only [Bool.or_eq_true, decide_eq_true_eq]
        omega
    · refine sortBy_sorted _ ?_ ?_ l'
      · intro a b c h1 h2
        simp only [decide_eq_true_eq] at h1 h2 ⊢
        omega
      · intro a b
        simp only [Bool.or_eq_true, decide_eq_true_eq]
        omega
    · exact (sortBy_perm _ l).trans (h.trans (sortBy_perm _ l').symm)
  unfold detectFreq
  rw [e]

/-- **C95, tables.** For each series of a dated table: the frequency in its metadata is the one detected for the dates of the series, the range and the
weights of the label are those of the samples that were used, the text of the weights that of its observations, and predictions carry the label of the metadata. -/
theorem C95_table (w : World K) (args : RunArgs K) (id : String) (t : STable K) (res : RunResult K) (h : runForecast w args id t = .ok (some res)) (s : String)
    (hm : IsSeries t id s) (hd : t.hasDate = true) (r : MRow K) (hr : r ∈ (partOf t s res).metadata) :
    r.source = s ∧ r.long.freq = detectFreq ((rowsOf t s).map SRow.date) ∧
      RangeSays true r.long.range ((fitted (partOf t s res).data).map DRow.date) ∧
      WeightsSay r.long.weights ((fitted (partOf t s res).data).filterMap DRow.weight) ∧
      WeightsSay r.weights ((observedRows (partOf t s res).data).filterMap DRow.weight) ∧
      (r.weights = .one ↔ t.hasWeight = false ∧ args.findOutliers = false) ∧
      ∀ q ∈ (partOf t s res).data, q.isActuals = false → q.long = r.long := by
  obtain ⟨df, e1, e2, e3, -, -, e⟩ := each_series w args id t res h s hm
  rw [hd] at e1
  obtain ⟨a1, a2, a3, a4, a5, a6⟩ := C95_metadata w args s df _ e r hr
  refine ⟨a1, ?_, a3 e1, a4, a5, ?_, fun q hq ha => C95_forecasts_partial w args s df _ e (.inl e1) q hq ha r hr⟩
  · rw [a2, e1, if_pos rfl]
    apply detectFreq_perm
    have := e3.map fun q => q.1
    simpa [List.map_map, Function.comp_def] using this
  · rw [a6, e2]

/-! ### Examples -/

/-- Two series; the first is level except for one day. -/
def spikedTable : STable ℚ := ⟨true, true, false, false,
  ((List.range 4).map fun i : Nat => ⟨(20 - (i : Int)) * DAY, some "b", 0, some (i : ℚ), none⟩) ++
  ((List.range 9).map fun i : Nat => ⟨(12 - (i : Int)) * DAY, some "a", 0, if i = 5 then some 100 else some 5, none⟩)⟩

example : Proper spikedTable := ⟨⟨rfl, rfl, by decide +kernel, by decide +kernel⟩, by decide +kernel⟩

example : (sortBy (fun a b => decide (a.date ≤ b.date)) (rowsOf spikedTable "a")).map SRow.y = (loneSpike (5 : ℚ) 100 3 5).map some := by decide +kernel

/-- The run gives weight 0 to that day, and describes the series. -/
example : ((runForecast demoWorld { demoArgs [] (some [modelNaive stableSort]) with findOutliers := true } "" spikedTable).toOption.bind id).map (fun r =>
    ((((partOf spikedTable "a" r).data.filter DRow.isActuals).map DRow.weight), (partOf spikedTable "a" r).metadata.map fun m => (m.source, m.long.freq))) =
    some ((loneSpike (1 : ℚ) 0 3 5).map some, [("a", some .D)]) := by decide +kernel

end Anticipy
