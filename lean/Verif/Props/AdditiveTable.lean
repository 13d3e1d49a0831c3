import Verif.Props.TableSeries
import Verif.Props.Additive

/-
The results on models that add up features, for each series of a table as a user supplies it.
-/
namespace Anticipy
open Spec
variable {K : Type} [Field K] [LinearOrder K] [FloorRing K]

omit [Field K] [LinearOrder K] [FloorRing K] in
/-- Changing values and weights, or moving all dates by whole days, keeps a table proper. -/
theorem proper_map (t : STable K) (g : SRow K → SRow K) (k : Int) (hg : ∀ r, (g r).source = r.source) (hd : ∀ r, (g r).date = r.date + k)
    (hp : Proper t) : Proper { t with rows := t.rows.map g } where
  onePerDate := {
    hasX := hp.onePerDate.hasX
    hasDate := hp.onePerDate.hasDate
    timeOfDay := by
      intro r hr r' hr'
      obtain ⟨q, hq, rfl⟩ := List.mem_map.1 hr
      obtain ⟨q', hq', rfl⟩ := List.mem_map.1 hr'
      have := hp.onePerDate.timeOfDay q hq q' hq'
      rw [hd, hd, show q.date + k - (q'.date + k) = q.date - q'.date by omega]
      exact this
    distinct := by
      rw [List.pairwise_map]
      refine hp.onePerDate.distinct.imp ?_
      intro a b h hs
      rw [hd, hd]
      have := h (by rw [← hg a, ← hg b]; exact hs)
      omega }
  labelled := by
    intro h r hr
    obtain ⟨q, hq, rfl⟩ := List.mem_map.1 hr
    rw [hg]
    exact hp.labelled h q hq

omit [Field K] [LinearOrder K] [FloorRing K] in
theorem isSeries_map (t : STable K) (g : SRow K → SRow K) (hg : ∀ r, (g r).source = r.source) (id s : String) (h : IsSeries t id s) :
    IsSeries { t with rows := t.rows.map g } id s := by
  unfold IsSeries at h ⊢
  dsimp only
  split_ifs at h ⊢
  · obtain ⟨r, hr, e⟩ := h
    exact ⟨g r, List.mem_map_of_mem hr, by rw [hg, e]⟩
  · exact ⟨h.1, by simpa using h.2⟩

omit [FloorRing K] in
theorem follows_frame (start : Option Timestamp) (t : STable K) (s : String) (v : Int → Timestamp → K) (h : FollowsRule start t s v) :
    ∀ r ∈ kept start (seriesFrame t s), (∃ c, givenWeight (seriesFrame t s) r = some c ∧ 0 < c) → ∀ y, r.y = some y → y = v r.x r.date := by
  intro r hr hw y hy
  obtain ⟨h1, h2⟩ := List.mem_filter.1 hr
  obtain ⟨q, hq, rfl⟩ := List.mem_map.1 h1
  refine h q ((sortBy_perm _ _).mem_iff.1 hq) ⟨?_, ?_⟩ y hy
  · rintro d rfl
    simpa [seriesFrame] using h2
  · intro hwt
    obtain ⟨c, hc, hpos⟩ := hw
    refine ⟨c, ?_, hpos⟩
    have e : (seriesFrame t s).hasWeight = true := hwt
    unfold givenWeight at hc
    rw [e] at hc
    exact hc

/-- **C96, tables.** A series of a table that is an exact combination of the features of an additive model from the starting date on (in the rows that count)
is continued exactly by that model, if the observations tell the combinations apart. -/
theorem C96_table [IsStrictOrderedRing K] (w : World K) (args : RunArgs K) (id : String) (t : STable K) (hp : Proper t) (s : String) (hs : IsSeries t id s)
    (res : RunResult K) (h : runForecast w args id t = .ok (some res))
    (m : ForecastModel K) (reg : Registry K) (feats : List (Feature K)) (hm : AddsUp m reg feats) (hne : feats ≠ [])
    (hx : FitsExactly w args s (seriesFrame t s) m reg) (hid : Identifies feats (originOf t s) (observed (partOf t s res)))
    (p : List K) (hl : p.length = feats.length) (hexact : FollowsRule args.start t s (combination feats p)) :
    ForecastsAre (partOf t s res) m.name (fun d => combination feats p ((d - originOf t s) / (24 * 60 * 60 * 1000000000)) d) := by
  obtain ⟨hd, hrun⟩ := series_run w id t hp s hs
  exact C96_continued w args s _ _ (hrun args res h) m reg feats hm hne hx hd.dated _ hd.days hd.nodup hid p hl (follows_frame _ _ _ _ hexact)

/-- **C73, tables.** The forecasts for a series of a table are determined by the series. -/
theorem C73_table [IsStrictOrderedRing K] (w w' : World K) (args args' : RunArgs K) (id : String) (t : STable K) (hp : Proper t)
    (s : String) (hs : IsSeries t id s)
    (res res' : RunResult K) (h : runForecast w args id t = .ok (some res)) (h' : runForecast w' args' id t = .ok (some res'))
    (hstart : args'.start = args.start) (hout : args'.findOutliers = args.findOutliers)
    (m : ForecastModel K) (reg : Registry K) (feats : List (Feature K)) (hm : AddsUp m reg feats) (hlev : HasLevel feats) (hne : feats ≠ [])
    (hx : FitsExactly w args s (seriesFrame t s) m reg) (hx' : FitsExactly w' args' s (seriesFrame t s) m reg)
    (hid : Identifies feats (originOf t s) (observed (partOf t s res)))
    (r r' : DRow K) (hr : ForecastOf (partOf t s res) m.name r) (hr' : ForecastOf (partOf t s res') m.name r') (hsame : r'.date = r.date) : r'.y = r.y := by
  obtain ⟨hd, hrun⟩ := series_run w id t hp s hs
  obtain ⟨-, hrun'⟩ := series_run w' id t hp s hs
  exact C73_additive w w' args args' s s _ _ _ (hrun args res h) (hrun' args' res' h') hstart hout m reg feats hm hlev hne hx hx' hd.dated _ hd.days hd.nodup
    hid r r' hr hr' hsame

/-- **C74, tables.** All values of the table in another unit and with another origin: the forecasts for each series follow. -/
theorem C74_table [IsStrictOrderedRing K] (w w' : World K) (args args' : RunArgs K) (id : String) (t : STable K) (hp : Proper t)
    (s : String) (hs : IsSeries t id s)
    (c d : K) (hc : c ≠ 0) (res res' : RunResult K) (h : runForecast w args id t = .ok (some res))
    (h' : runForecast w' args' id (rescaledTable c d t) = .ok (some res'))
    (hstart : args'.start = args.start) (hout : args'.findOutliers = args.findOutliers)
    (m : ForecastModel K) (reg : Registry K) (feats : List (Feature K)) (hm : AddsUp m reg feats) (hlev : HasLevel feats) (hne : feats ≠ [])
    (hx : FitsExactly w args s (seriesFrame t s) m reg) (hx' : FitsExactly w' args' s (seriesFrame t s) m reg)
    (hid : Identifies feats (originOf t s) (observed (partOf t s res)))
    (r r' : DRow K) (hr : ForecastOf (partOf t s res) m.name r) (hr' : ForecastOf (partOf t s res') m.name r') (hsame : r'.date = r.date) :
    ∃ v, r.y = some v ∧ r'.y = some (c * v + d) := by
  obtain ⟨hd, hrun⟩ := series_run w id t hp s hs
  obtain ⟨-, hrun'⟩ := series_run w' id (rescaledTable c d t) (proper_map t _ 0 (fun _ => rfl) (fun _ => (add_zero _).symm) hp) s
    (isSeries_map t (fun r => { r with y := r.y.map fun v => c * v + d }) (fun _ => rfl) id s hs)
  have h2 := hrun' args' res' h'
  rw [seriesFrame_rescaled] at h2
  exact C74_additive w w' args args' s s _ c d hc _ _ (hrun args res h) h2 hstart hout m reg feats hm hlev hne hx hx' hd.dated _ hd.days hd.nodup
    hid r r' hr hr' hsame

/-- **C76, tables.** Weights count relative to each other. -/
theorem C76_table [IsStrictOrderedRing K] (w w' : World K) (args args' : RunArgs K) (id : String) (t : STable K) (hp : Proper t)
    (s : String) (hs : IsSeries t id s)
    (k : K) (hk : 0 < k) (hw : t.hasWeight = true) (res res' : RunResult K) (h : runForecast w args id t = .ok (some res))
    (h' : runForecast w' args' id (reweightedTable k t) = .ok (some res'))
    (hstart : args'.start = args.start) (hout : args'.findOutliers = args.findOutliers)
    (m : ForecastModel K) (reg : Registry K) (feats : List (Feature K)) (hm : AddsUp m reg feats) (hlev : HasLevel feats) (hne : feats ≠ [])
    (hx : FitsExactly w args s (seriesFrame t s) m reg) (hx' : FitsExactly w' args' s (seriesFrame t s) m reg)
    (hid : Identifies feats (originOf t s) (observed (partOf t s res)))
    (r r' : DRow K) (hr : ForecastOf (partOf t s res) m.name r) (hr' : ForecastOf (partOf t s res') m.name r') (hsame : r'.date = r.date) : r'.y = r.y := by
  obtain ⟨hd, hrun⟩ := series_run w id t hp s hs
  obtain ⟨-, hrun'⟩ := series_run w' id (reweightedTable k t) (proper_map t _ 0 (fun _ => rfl) (fun _ => (add_zero _).symm) hp) s
    (isSeries_map t (fun r => { r with weight := r.weight.map fun w => k * w }) (fun _ => rfl) id s hs)
  have h2 := hrun' args' res' h'
  rw [seriesFrame_reweighted] at h2
  exact C76_additive w w' args args' s s _ k hk hw _ _ (hrun args res h) h2 hstart hout m reg feats hm hlev hne hx hx' hd.dated _ hd.days hd.nodup
    hid r r' hr hr' hsame

/-- **C77, tables.** All dates of the table moved by a number of weeks after which the features of the model repeat: the forecasts move along. -/
theorem C77_table [IsStrictOrderedRing K] (w w' : World K) (args args' : RunArgs K) (id : String) (t : STable K) (hp : Proper t)
    (s : String) (hs : IsSeries t id s)
    (k : Int) (res res' : RunResult K) (h : runForecast w args id t = .ok (some res))
    (h' : runForecast w' args' id (movedTable (7 * k * (24 * 60 * 60 * 1000000000)) t) = .ok (some res'))
    (hstart : args'.start = args.start.map fun d => d + 7 * k * (24 * 60 * 60 * 1000000000)) (hout : args'.findOutliers = args.findOutliers)
    (m : ForecastModel K) (reg : Registry K) (feats : List (Feature K)) (hm : AddsUp m reg feats) (hlev : HasLevel feats) (hne : feats ≠ [])
    (hper : Periodic feats (7 * k * (24 * 60 * 60 * 1000000000)))
    (hx : FitsExactly w args s (seriesFrame t s) m reg)
    (hx' : FitsExactly w' args' s (seriesFrame (movedTable (7 * k * (24 * 60 * 60 * 1000000000)) t) s) m reg)
    (hid : Identifies feats (originOf t s) (observed (partOf t s res)))
    (r r' : DRow K) (hr : ForecastOf (partOf t s res) m.name r) (hr' : ForecastOf (partOf t s res') m.name r')
    (hsame : r'.date = r.date + 7 * k * (24 * 60 * 60 * 1000000000)) : r'.y = r.y := by
  obtain ⟨hd, hrun⟩ := series_run w id t hp s hs
  obtain ⟨-, hrun'⟩ := series_run w' id (movedTable (7 * k * (24 * 60 * 60 * 1000000000)) t) (proper_map t _ _ (fun _ => rfl) (fun _ => rfl) hp) s
    (isSeries_map t (fun r => { r with date := r.date + 7 * k * (24 * 60 * 60 * 1000000000) }) (fun _ => rfl) id s hs)
  have h2 := hrun' args' res' h'
  rw [seriesFrame_moved] at h2 hx'
  exact C77_additive w w' args args' s s _ _ _ _ (hrun args res h) h2 hstart hout m reg feats hm hlev hne hper hx hx' hd.dated _ hd.days hd.nodup
    hid r r' hr hr' hsame

/-- **C75, tables.** Three tables over the same sources, dates and weights: if the values of the third combine those of the first two, so do the forecasts for
each series. -/
theorem C75_table [IsStrictOrderedRing K] (w w' w'' : World K) (args args' args'' : RunArgs K) (id : String) (t : STable K) (hp : Proper t)
    (s : String) (hs : IsSeries t id s) (u v : Option String → Timestamp → K) (a b : K) (res res' res'' : RunResult K)
    (h : runForecast w args id (valuedTable u t) = .ok (some res)) (h' : runForecast w' args' id (valuedTable v t) = .ok (some res'))
    (h'' : runForecast w'' args'' id (valuedTable (fun l d => a * u l d + b * v l d) t) = .ok (some res''))
    (hstart' : args'.start = args.start) (hstart'' : args''.start = args.start) (hout : args.findOutliers = false) (hout' : args'.findOutliers = false)
    (hout'' : args''.findOutliers = false)
    (m : ForecastModel K) (reg : Registry K) (feats : List (Feature K)) (hm : AddsUp m reg feats) (hlev : HasLevel feats) (hne : feats ≠ [])
    (hx : FitsExactly w args s (seriesFrame t s) m reg) (hx' : FitsExactly w' args' s (seriesFrame t s) m reg)
    (hx'' : FitsExactly w'' args'' s (seriesFrame t s) m reg)
    (hid : Identifies feats (originOf t s) (observed (partOf t s res'')))
    (r r' r'' : DRow K) (hr : ForecastOf (partOf t s res) m.name r) (hr' : ForecastOf (partOf t s res') m.name r')
    (hr'' : ForecastOf (partOf t s res'') m.name r'') (hsame' : r'.date = r.date) (hsame'' : r''.date = r.date) :
    ∃ y y', r.y = some y ∧ r'.y = some y' ∧ r''.y = some (a * y + b * y') := by
  obtain ⟨hd, -⟩ := series_run w id t hp s hs
  have run : ∀ (w : World K) (args : RunArgs K) (u : Option String → Timestamp → K) (res : RunResult K), runForecast w args id (valuedTable u t) = .ok (some res) →
      runSingle w args s (valued (fun x => u (if t.hasSource then some s else none) (originOf t s + x * (24 * 60 * 60 * 1000000000))) (seriesFrame t s)) =
        .ok (partOf t s res) := by
    intro w args u res h
    obtain ⟨-, hrun⟩ := series_run w id (valuedTable u t) (proper_map t _ 0 (fun _ => rfl) (fun _ => (add_zero _).symm) hp) s
      (isSeries_map t (fun r => { r with y := r.y.map fun _ => u (if t.hasSource then r.source else none) r.date }) (fun _ => rfl) id s hs)
    rw [← seriesFrame_valued u t s hd.days]
    exact hrun args res h
  have e1 := run w args u res h
  have e2 := run w' args' v res' h'
  have e3 := run w'' args'' _ res'' h''
  exact C75_additive w w' w'' args args' args'' s s s (seriesFrame t s)
    (fun x => u (if t.hasSource then some s else none) (originOf t s + x * (24 * 60 * 60 * 1000000000)))
    (fun x => v (if t.hasSource then some s else none) (originOf t s + x * (24 * 60 * 60 * 1000000000))) a b _ _ _ e1 e2 e3 hstart' hstart'' hout hout' hout''
    m reg feats hm hlev hne hx hx' hx'' hd.dated _ hd.days hd.nodup hid r r' r'' hr hr' hr'' hsame' hsame''

/-- **C88, tables.** The errors of the fit for a series are orthogonal to every feature. -/
theorem C88_table [IsStrictOrderedRing K] (w : World K) (args : RunArgs K) (id : String) (t : STable K) (hp : Proper t) (s : String) (hs : IsSeries t id s)
    (res : RunResult K) (h : runForecast w args id t = .ok (some res))
    (m : ForecastModel K) (reg : Registry K) (feats : List (Feature K)) (hm : AddsUp m reg feats) (hlev : HasLevel feats) (hne : feats ≠ [])
    (hx : FitsExactly w args s (seriesFrame t s) m reg) (hid : Identifies feats (originOf t s) (observed (partOf t s res)))
    (r0 : DRow K) (hr : ForecastOf (partOf t s res) m.name r0) :
    ∃ p : List K, p.length = feats.length ∧
      ForecastsAre (partOf t s res) m.name (fun d => combination feats p ((d - originOf t s) / (24 * 60 * 60 * 1000000000)) d) ∧
      ∀ φ ∈ feats, errorSum (partOf t s res) (fun d => combination feats p ((d - originOf t s) / (24 * 60 * 60 * 1000000000)) d)
        (fun d => φ ((d - originOf t s) / (24 * 60 * 60 * 1000000000)) d) = 0 := by
  obtain ⟨hd, hrun⟩ := series_run w id t hp s hs
  exact C88_additive w args s _ _ (hrun args res h) m reg feats hm hlev hne hx hd.dated _ hd.days hd.nodup hid r0 hr

/-- **C89, tables.** Rows are appended to the table, each later than all earlier rows of its source and at the same time of day: if those of a series are null
or confirm the forecast of a model for the series, then the forecasts of this model for the series stay as they are. -/
theorem C89_table [IsStrictOrderedRing K] (w w' : World K) (args args' : RunArgs K) (id : String) (t : STable K) (hp : Proper t)
    (s : String) (hs : IsSeries t id s)
    (extra : List (SRow K)) (hp' : Proper (extendedTable t extra))
    (hlater : ∀ r ∈ rowsOf t s, ∀ q ∈ rowsOf { t with rows := extra } s, r.date ≤ q.date)
    (res res' : RunResult K) (h : runForecast w args id t = .ok (some res)) (h' : runForecast w' args' id (extendedTable t extra) = .ok (some res'))
    (hstart : args'.start = args.start) (hout : args.findOutliers = false) (hout' : args'.findOutliers = false)
    (m : ForecastModel K) (reg : Registry K) (feats : List (Feature K)) (hm : AddsUp m reg feats) (hlev : HasLevel feats) (hne : feats ≠ [])
    (hx : FitsExactly w args s (seriesFrame t s) m reg) (hx' : FitsExactly w' args' s (seriesFrame (extendedTable t extra) s) m reg)
    (hid : Identifies feats (originOf t s) (observed (partOf t s res)))
    (hcomes : ∀ q ∈ rowsOf { t with rows := extra } s, q.y ≠ none → ∃ r, ForecastOf (partOf t s res) m.name r ∧ r.date = q.date ∧ r.y = q.y)
    (r r' : DRow K) (hr : ForecastOf (partOf t s res) m.name r) (hr' : ForecastOf (partOf t s res') m.name r') (hsame : r'.date = r.date) : r'.y = r.y := by
  have hne' : rowsOf t s ≠ [] := by
    unfold IsSeries at hs
    unfold rowsOf only
    split_ifs at hs ⊢
    · obtain ⟨r, hr, e⟩ := hs
      exact List.ne_nil_of_mem (List.mem_filter.2 ⟨hr, by simp [e]⟩)
    · exact hs.2
  have hs' : IsSeries (extendedTable t extra) id s := by
    unfold IsSeries extendedTable at *
    dsimp only
    split_ifs at hs ⊢
    · obtain ⟨r, hr, e⟩ := hs
      exact ⟨r, List.mem_append_left _ hr, e⟩
    · exact ⟨hs.1, by simp [hs.2]⟩
  obtain ⟨hd, hrun⟩ := series_run w id t hp s hs
  obtain ⟨hd', hrun'⟩ := series_run w' id (extendedTable t extra) hp' s hs'
  have h2 := hrun' args' res' h'
  have ho : originOf (extendedTable t extra) s = originOf t s := by
    unfold originOf
    rw [rowsOf_extended]
    cases hr : rowsOf t s with
    | nil => exact absurd hr hne'
    | cons r l => rfl
  rw [seriesFrame_extended t extra s hne' hlater] at h2 hx' hd'
  rw [ho] at hd'
  refine C89_additive w w' args args' s s _ _ _ _ (hrun args res h) h2 hstart hout hout' m reg feats hm hlev hne hx hx' hd.dated _ hd'.days hd'.nodup hid ?_
    r r' hr hr' hsame
  intro q hq hy
  obtain ⟨q0, h0, rfl⟩ := List.mem_map.1 hq
  obtain ⟨r, hr, e1, e2⟩ := hcomes q0 ((sortBy_perm _ _).mem_iff.1 h0) hy
  exact ⟨r, hr.1, hr.2.1, hr.2.2, e1, e2⟩

/-- **C91, tables.** Prediction intervals for each series follow a change of unit of all values of the table. -/
theorem C91_table [IsStrictOrderedRing K] (w w' : World K) (args args' : RunArgs K) (id : String) (t : STable K) (hp : Proper t)
    (s : String) (hs : IsSeries t id s)
    (c d : K) (hc : c ≠ 0) (res res' : RunResult K) (h : runForecast w args id t = .ok (some res))
    (h' : runForecast w' args' id (rescaledTable c d t) = .ok (some res'))
    (hargs : args'.start = args.start ∧ args'.findOutliers = args.findOutliers ∧ args'.years = args.years ∧ args'.nCum = args.nCum ∧
      args'.q1 = args.q1 ∧ args'.q2 = args.q2 ∧ args'.widening = args.widening) (hdraw : w'.draw s = w.draw s)
    (m : ForecastModel K) (hma : m.name ≠ "actuals") (reg : Registry K) (feats : List (Feature K)) (hm : AddsUp m reg feats) (hlev : HasLevel feats)
    (hne : feats ≠ []) (hx : FitsExactly w args s (seriesFrame t s) m reg) (hx' : FitsExactly w' args' s (seriesFrame t s) m reg)
    (hnames : ∀ df' cand, candidates w.ch args.models df' (runFreq (seriesFrame t s)) = .ok cand → (cand.2.map ForecastModel.name).Nodup)
    (hnames' : ∀ df' cand, candidates w'.ch args'.models df' (runFreq (seriesFrame t s)) = .ok cand → (cand.2.map ForecastModel.name).Nodup)
    (hid : Identifies feats (originOf t s) (observed (partOf t s res)))
    (hb : ∃ r, ForecastOf (partOf t s res) m.name r ∧ r.isBest = true) (hb' : ∃ r, ForecastOf (partOf t s res') m.name r ∧ r.isBest = true) :
    (partOf t s res').forecast = (partOf t s res).forecast.map (if 0 < c then intervalMoved c fun _ => d else intervalMirrored c fun _ => d) := by
  obtain ⟨hd, hrun⟩ := series_run w id t hp s hs
  obtain ⟨-, hrun'⟩ := series_run w' id (rescaledTable c d t) (proper_map t _ 0 (fun _ => rfl) (fun _ => (add_zero _).symm) hp) s
    (isSeries_map t (fun r => { r with y := r.y.map fun v => c * v + d }) (fun _ => rfl) id s hs)
  have h2 := hrun' args' res' h'
  rw [seriesFrame_rescaled] at h2
  exact C91_additive w w' args args' s _ c d hc _ _ (hrun args res h) h2 hargs hdraw m hma reg feats hm hlev hne hx hx' hnames hnames' hd.dated _ hd.days hd.nodup
    hid hb hb'

/-! ### A concrete case -/

/-- Two sources, rows in no particular order; the first source is the series of `steppedFrame`, whose days are counted from Monday, day 4. -/
def steppedTable : STable ℚ := ⟨true, true, false, true, [⟨8 * DAY, some "s", 0, some 19, some 2⟩, ⟨6 * DAY, some "other", 0, some 5, some 1⟩,
  ⟨5 * DAY, some "s", 0, some 3, some 1⟩, ⟨10 * DAY, some "s", 0, some 23, some 1⟩, ⟨4 * DAY, some "s", 0, some 50, some 0⟩,
  ⟨9 * DAY, some "other", 0, some 21, some 1⟩, ⟨7 * DAY, some "s", 0, none, some 1⟩, ⟨9 * DAY, some "s", 0, some 21, some 1⟩,
  ⟨5 * DAY, some "other", 0, some 3, some 1⟩, ⟨6 * DAY, some "s", 0, some 5, some 1⟩, ⟨8 * DAY, some "other", 0, some 19, some 1⟩]⟩

example : Proper steppedTable := ⟨⟨rfl, rfl, by decide +kernel, by decide +kernel⟩, by decide +kernel⟩

example : IsSeries steppedTable "" "s" ∧ originOf steppedTable "s" = 4 * DAY ∧ seriesFrame steppedTable "s" = steppedFrame :=
  ⟨⟨_, List.mem_cons_self, rfl⟩, by decide +kernel, by decide +kernel⟩

/-- The rows that count follow the rule. -/
example : FollowsRule none steppedTable "s" (combination steppedFeatures [2, 1, 10]) := by
  intro r hr hc y hy
  have e : rowsOf steppedTable "s" = [⟨8 * DAY, some "s", 0, some 19, some 2⟩, ⟨5 * DAY, some "s", 0, some 3, some 1⟩, ⟨10 * DAY, some "s", 0, some 23, some 1⟩,
      ⟨4 * DAY, some "s", 0, some 50, some 0⟩, ⟨7 * DAY, some "s", 0, none, some 1⟩, ⟨9 * DAY, some "s", 0, some 21, some 1⟩,
      ⟨6 * DAY, some "s", 0, some 5, some 1⟩] := by decide +kernel
  have ho : originOf steppedTable "s" = 4 * DAY := by decide +kernel
  obtain ⟨w, hw, hpos⟩ := hc.2 rfl
  rw [ho]
  rw [e] at hr
  simp only [List.mem_cons, List.not_mem_nil, or_false] at hr
  rcases hr with rfl | rfl | rfl | rfl | rfl | rfl | rfl <;> first | (cases hw; exact absurd hpos (by decide)) | (cases hy; decide +kernel) | (cases hy)

/-- The forecast for the first source. -/
example : ((runForecast steppedWorld steppedArgs "" steppedTable).toOption.bind id).map (fun r =>
    (((partOf steppedTable "s" r).data.filter fun q => !q.isActuals).map fun q => (q.date / DAY, q.y))) =
    some [(5, some 3), (6, some 5), (7, some 7), (8, some 19), (9, some 21), (10, some 23), (11, some 25), (12, some 27), (13, some 29)] := by decide +kernel

end Anticipy
