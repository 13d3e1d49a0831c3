import Verif.Spec.Detrended
import Verif.Props.OneOff
import Verif.Props.AdditiveTable

/-
C130: known components may be taken out before forecasting and added again afterwards.
-/
namespace Anticipy
open Spec
variable {K : Type} [Field K] [LinearOrder K] [FloorRing K]

/-- **C130.** The values of a series are multiplied by a number, and a known combination of the components of an additive model is added: the forecasts of this model
are multiplied by the number, and the same combination is added, for every date. -/
theorem C130_component [IsStrictOrderedRing K] (w w' : World K) (args args' : RunArgs K) (id : String) (t : STable K) (hp : Proper t) (s : String)
    (hs : IsSeries t id s) (Y : SRow K → K) (res res' : RunResult K) (h : runForecast w args id t = .ok (some res))
    (h' : runForecast w' args' id (revised Y t) = .ok (some res')) (hstart : args'.start = args.start) (hout : args.findOutliers = false)
    (hout' : args'.findOutliers = false)
    (m : ForecastModel K) (reg : Registry K) (feats : List (Feature K)) (hm : AddsUp m reg feats) (hlev : HasLevel feats) (hne : feats ≠ [])
    (hx : FitsExactly w args s (seriesFrame t s) m reg) (hx' : FitsExactly w' args' s (seriesFrame (revised Y t) s) m reg)
    (hid : Identifies feats (originOf t s) (observed (partOf t s res)))
    (c : K) (g : List K) (hg : g.length = feats.length)
    (hY : ∀ r ∈ counted args.start t s, ∀ v, r.y = some v → Y r = c * v + combination feats g ((r.date - originOf t s) / (24 * 60 * 60 * 1000000000)) r.date)
    (r r' : DRow K) (hr : ForecastOf (partOf t s res) m.name r) (hr' : ForecastOf (partOf t s res') m.name r') (hsame : r'.date = r.date) :
    ∃ v, r.y = some v ∧ r'.y = some (c * v + combination feats g ((r.date - originOf t s) / (24 * 60 * 60 * 1000000000)) r.date) := by
  obtain ⟨p, p', hpl, hpl', hf, hf', a1, a2⟩ := fit_normal w w' args args' id t hp s hs Y res res' h h' hstart hout hout' m reg feats hm hlev hne hx hx' hid r r' hr hr'
  have hzl : (List.zipWith (fun a b => c * a + 1 * b) p g).length = feats.length := by
    rw [List.length_zipWith, hpl, hg, min_self]
  have hz := fun x d => combination_zip c 1 feats p g hpl hg x d
  have hd : t.hasDate = true := hp.onePerDate.hasDate
  have huniq := normal_unique (counted args.start t s) (rowWeight t) Y (by
    intro q hq
    have := (List.mem_filter.1 hq).2
    simp only [Bool.and_eq_true, decide_eq_true_eq] at this
    exact this.2) (originOf t s) feats (List.zipWith (fun a b => c * a + 1 * b) p g) p' (by
    intro φ hφ
    have := congrArg (fun z => c * z) (a1 φ hφ)
    rw [mul_zero, ← List.sum_map_mul_left] at this
    refine Eq.trans ?_ this
    congr 1
    apply List.map_congr_left
    intro q hq
    have hy : q.y.isSome = true := by
      have := (List.mem_filter.1 hq).2
      simp only [Bool.and_eq_true] at this
      exact this.1.2
    obtain ⟨y, hy⟩ := Option.isSome_iff_exists.1 hy
    rw [hz, hY q hq y hy, hy, Option.getD_some]
    ring) a2
  have hall := hid _ p' hzl hpl' (by
    intro a ha
    have hm := (observed_perm w args id t res h s hs hd hout).mem_iff.1 (List.mem_map_of_mem ha)
    obtain ⟨q, hq, e⟩ := List.mem_map.1 hm
    rw [← e]
    exact huniq q hq)
  have e1 := hf r hr.1 hr.2.1 hr.2.2
  have e2 := hf' r' hr'.1 hr'.2.1 hr'.2.2
  refine ⟨_, e1, ?_⟩
  rw [e2, hsame]
  dsimp only
  rw [← hall, hz, one_mul]

/-- The series with `g` added, its values multiplied by `c`. -/
def plusFrame (c : K) (g : Timestamp → K) (df : Frame K) : Frame K := { df with rows := df.rows.map fun r => { r with y := r.y.map fun v => c * v + g r.date } }

omit [LinearOrder K] [FloorRing K] in
theorem plusTable_revised (c : K) (u : Option String → Timestamp → K) (t : STable K) :
    plusTable c u t = revised (fun r => c * r.y.getD 0 + u (if t.hasSource then r.source else none) r.date) t := by
  unfold plusTable revised
  congr 1
  apply List.map_congr_left
  intro r _
  obtain ⟨d, sr, x, y, wt⟩ := r
  cases y <;> rfl

omit [LinearOrder K] [FloorRing K] in
theorem seriesFrame_plus (c : K) (u : Option String → Timestamp → K) (t : STable K) (s : String) :
    seriesFrame (plusTable c u t) s = plusFrame c (u (if t.hasSource then some s else none)) (seriesFrame t s) := by
  refine (seriesFrame_map t (fun r => { r with y := r.y.map fun v => c * v + u (if t.hasSource then r.source else none) r.date }) 0 (fun _ => rfl)
    (fun r => by simp) s).trans ?_
  unfold plusFrame seriesFrame
  simp only [List.map_map, Frame.mk.injEq, true_and]
  apply List.map_congr_left
  intro r hr
  have hsrc : (if t.hasSource then r.source else none) = if t.hasSource then some s else none := by
    have := (sortBy_perm _ _).mem_iff.1 hr
    unfold rowsOf only at this
    split_ifs at this ⊢ with hs
    · exact of_decide_eq_true (List.mem_filter.1 this).2
    · rfl
  simp only [Function.comp, hsrc]
  simp

omit [FloorRing K] in
theorem runFreq_plus (c : K) (g : Timestamp → K) (df : Frame K) : runFreq (plusFrame c g df) = runFreq df := by
  unfold runFreq
  have : (plusFrame c g df).rows.map Row.date = df.rows.map Row.date := by simp [plusFrame, Function.comp_def]
  have h1 : (plusFrame c g df).hasDate = df.hasDate := rfl
  rw [this, h1]

/-- **C130, tables.** A known combination of the components of an additive model is added to the values of a series (or, with the opposite sign, taken out): the forecasts
of this model change by the same combination, for every date. -/
theorem C130_table [IsStrictOrderedRing K] (w w' : World K) (args args' : RunArgs K) (id : String) (t : STable K) (hp : Proper t) (s : String)
    (hs : IsSeries t id s) (c : K) (u : Option String → Timestamp → K) (res res' : RunResult K) (h : runForecast w args id t = .ok (some res))
    (h' : runForecast w' args' id (plusTable c u t) = .ok (some res')) (hstart : args'.start = args.start) (hout : args.findOutliers = false)
    (hout' : args'.findOutliers = false)
    (m : ForecastModel K) (reg : Registry K) (feats : List (Feature K)) (hm : AddsUp m reg feats) (hlev : HasLevel feats) (hne : feats ≠ [])
    (hx : FitsExactly w args s (seriesFrame t s) m reg) (hx' : FitsExactly w' args' s (seriesFrame t s) m reg)
    (hid : Identifies feats (originOf t s) (observed (partOf t s res)))
    (g : List K) (hg : g.length = feats.length)
    (hu : ∀ d, u (if t.hasSource then some s else none) d = combination feats g ((d - originOf t s) / (24 * 60 * 60 * 1000000000)) d)
    (r r' : DRow K) (hr : ForecastOf (partOf t s res) m.name r) (hr' : ForecastOf (partOf t s res') m.name r') (hsame : r'.date = r.date) :
    ∃ v, r.y = some v ∧ r'.y = some (c * v + u (if t.hasSource then some s else none) r.date) := by
  rw [plusTable_revised] at h'
  rw [hu]
  refine C130_component w w' args args' id t hp s hs _ res res' h h' hstart hout hout' m reg feats hm hlev hne hx ⟨hx'.minimum, ?_, hx'.registered⟩ hid c g hg ?_ r r' hr hr' hsame
  · rw [← plusTable_revised, seriesFrame_plus, runFreq_plus]
    exact hx'.only
  · intro q hq v hv
    have hsrc : (if t.hasSource then q.source else none) = if t.hasSource then some s else none := by
      have := (List.mem_filter.1 hq).1
      unfold rowsOf only at this
      split_ifs at this ⊢ with hs
      · exact of_decide_eq_true (List.mem_filter.1 this).2
      · rfl
    rw [hsrc, hu, hv, Option.getD_some]

/-- **C130, intervals.** If the model is chosen for the series in both runs, with the same random draws, all columns of the forecast table follow; for a negative factor
the columns of percentiles p and 100 - p change places. -/
theorem C130_intervals [IsStrictOrderedRing K] (w w' : World K) (args args' : RunArgs K) (id : String) (t : STable K) (hp : Proper t) (s : String)
    (hs : IsSeries t id s) (c : K) (hc : c ≠ 0) (u : Option String → Timestamp → K) (res res' : RunResult K) (h : runForecast w args id t = .ok (some res))
    (h' : runForecast w' args' id (plusTable c u t) = .ok (some res'))
    (hargs : args'.start = args.start ∧ args'.years = args.years ∧ args'.nCum = args.nCum ∧ args'.q1 = args.q1 ∧ args'.q2 = args.q2 ∧
      args'.widening = args.widening) (hout : args.findOutliers = false) (hout' : args'.findOutliers = false) (hdraw : w'.draw s = w.draw s)
    (m : ForecastModel K) (hma : m.name ≠ "actuals") (reg : Registry K) (feats : List (Feature K)) (hm : AddsUp m reg feats) (hlev : HasLevel feats) (hne : feats ≠ [])
    (hx : FitsExactly w args s (seriesFrame t s) m reg) (hx' : FitsExactly w' args' s (seriesFrame t s) m reg)
    (hnames : ∀ df' cand, candidates w.ch args.models df' (runFreq (seriesFrame t s)) = .ok cand → (cand.2.map ForecastModel.name).Nodup)
    (hnames' : ∀ df' cand, candidates w'.ch args'.models df' (runFreq (seriesFrame t s)) = .ok cand → (cand.2.map ForecastModel.name).Nodup)
    (hid : Identifies feats (originOf t s) (observed (partOf t s res)))
    (g : List K) (hg : g.length = feats.length)
    (hu : ∀ d, u (if t.hasSource then some s else none) d = combination feats g ((d - originOf t s) / (24 * 60 * 60 * 1000000000)) d)
    (hb : ∃ r, ForecastOf (partOf t s res) m.name r ∧ r.isBest = true) (hb' : ∃ r, ForecastOf (partOf t s res') m.name r ∧ r.isBest = true) :
    (partOf t s res').forecast = (partOf t s res).forecast.map (if 0 < c then intervalMoved c (u (if t.hasSource then some s else none))
      else intervalMirrored c (u (if t.hasSource then some s else none))) := by
  obtain ⟨hd, hrun⟩ := series_run w id t hp s hs
  obtain ⟨-, hrun'⟩ := series_run w' id (plusTable c u t) (proper_map t _ 0 (fun _ => rfl) (fun _ => (add_zero _).symm) hp) s
    (isSeries_map t (fun r => { r with y := r.y.map fun v => c * v + u (if t.hasSource then r.source else none) r.date }) (fun _ => rfl) id s hs)
  have k1 := hrun args res h
  have k2 : runSingle w' args' s _ = .ok (partOf t s res') := hrun' args' res' h'
  rw [seriesFrame_plus] at k2
  obtain ⟨a1, a3, a4, a5, a6, a7⟩ := hargs
  have hrows0 := fun r r' hr hr' hsame => C130_table w w' args args' id t hp s hs c u res res' h h' a1 hout hout' m reg feats hm hlev hne hx hx' hid g hg hu r r' hr hr' hsame
  have hmi := hm.inParameters hlev hne
  have hlen : ∀ (env : Env K), FindsMinimum env → ∀ (used : Frame K) act cc f, fitModel env m used act cc = .ok f → f.isFit = true →
      f.params.length = m.nParams := by
    intro env he used act cc f e hf
    obtain ⟨-, ctx, guess, b, r, -, -, -, h4, h5, h6, h7, -⟩ := fitModel_solver _ m _ _ _ f hm.unpinned hmi.params e hf
    rw [h7]
    exact (hmi.free _ _ _ h4).1 (he _ _ _ _ h5 h6).1
  have hval := fun (ctx : Ctx K) xs ds p h1 h2 h3 h4 (h5 : ∀ k, ctx.cache k = none) h6 =>
    hmi.value ctx xs ds p h1 h2 h3 h4 (by intro k v hk; rw [h5] at hk; cases hk) h6
  have hbest : ∀ q : RunResult K, (∃ r, ForecastOf q m.name r ∧ r.isBest = true) → ∃ r ∈ q.data, r.isActuals = false ∧ r.isBest = true ∧ r.model = m.name := by
    rintro q ⟨r, ⟨b1, b2, b3⟩, b4⟩
    exact ⟨r, b1, b2, b4, b3⟩
  obtain ⟨df2, i, f, act, start, x0, sx, hOut, e2, hfit, s1, s2, s3, s4⟩ := selected_rows w args s _ _ k1 m hma hx.only hnames (hbest _ hb) hd.dated _ hval
    (fun i used act f e hf => hlen _ (hx.minimum i) used act _ f e hf)
  obtain ⟨df2', i', f', act', start', x0', sx', hOut', e2', hfit', s1', s2', s3', s4'⟩ := selected_rows w' args' s _ _ k2 m hma
    (by rw [runFreq_plus]; exact hx'.only) (by rw [runFreq_plus]; exact hnames') (hbest _ hb') hd.dated _ hval (fun i used act f e hf => hlen _ (hx'.minimum i) used act _ f e hf)
  generalize u (if t.hasSource then some s else none) = v at *
  have hfs : ∀ df : Frame K, filterStart args.start (plusFrame c v df) = plusFrame c v (filterStart args.start df) := by
    intro df
    obtain ⟨hd, hw, rows⟩ := df
    cases args.start with
    | none => rfl
    | some t =>
      cases hd with
      | false => rfl
      | true =>
        simp only [filterStart, plusFrame, if_true, List.filter_map]
        rfl
  have hdw : ∀ df : Frame K, (defaultWeights (plusFrame c v df)).1 = plusFrame c v (defaultWeights df).1 := by
    intro df
    obtain ⟨hd, hw, rows⟩ := df
    cases hw with
    | false =>
      simp only [defaultWeights, plusFrame, Bool.false_eq_true, if_false, List.map_map]
      rfl
    | true => rfl
  have hur : ∀ df : Frame K, usedRows (plusFrame c v df) = plusFrame c v (usedRows df) := by
    intro df
    simp only [usedRows, plusFrame, List.filter_map]
    rfl
  have hax : ∀ g : Frame K, axisOf (plusFrame c v g) = axisOf g := by
    intro g
    unfold axisOf plusFrame
    simp only [List.map_map]
    rfl
  have hxs : ∀ g : Frame K, (plusFrame c v g).rows.map Row.x = g.rows.map Row.x := by
    intro g
    unfold plusFrame
    simp only [List.map_map]
    rfl
  have o1 : df2 = filterStart args.start (seriesFrame t s) := by
    rw [hout] at hOut
    exact (Except.ok.inj hOut).symm
  have o2 : df2' = plusFrame c v df2 := by
    rw [hout', a1, hfs, ← o1] at hOut'
    exact (Except.ok.inj hOut').symm
  subst o2
  rw [hdw] at s1' s2' s3' s4'
  rw [hur] at s1' s2'
  rw [hax, s1] at s1'
  rw [hxs, s2] at s2'
  cases s1'
  cases s2'
  rw [hax, runFreq_plus, a3, s3] at s3'
  cases s3'
  have hback : ∀ (q : RunResult K) (d : Timestamp) (y : K),
      (⟨d, some s, m.name, false, true, some y, some 1⟩ : FRow K) ∈ selectRows (toFTable (seriesFrame t s).hasDate q.data) →
      ∃ r, ForecastOf q m.name r ∧ r.date = d ∧ r.y = some y := by
    intro q d y hq
    unfold selectRows toFTable at hq
    rw [if_pos rfl] at hq
    obtain ⟨r, b1, b2⟩ := List.mem_map.1 (List.mem_filter.1 hq).1
    rw [FRow.mk.injEq] at b2
    obtain ⟨c1, -, c3, c4, -, c6, -⟩ := b2
    exact ⟨r, ⟨b1, c4, c3⟩, c1, c6⟩
  have hrows : selectRows (toFTable (seriesFrame t s).hasDate (partOf t s res').data) =
      selectRows (valuesMoved c v (toFTable (seriesFrame t s).hasDate (partOf t s res).data)) := by
    rw [selectRows_moved, s4]
    have s4'' : selectRows (toFTable (seriesFrame t s).hasDate (partOf t s res').data) = _ := s4'
    rw [s4'', List.map_append, List.map_map]
    congr 1
    · unfold plusFrame
      simp only [List.map_map]
      have hdd : (defaultWeights df2).1.hasDate = true := by
        have e1 : df2.hasDate = true := by
          rw [o1]
          unfold filterStart
          split <;> simp [hd.dated]
        unfold defaultWeights
        split <;> exact e1
      rw [hdd]
      rfl
    · rw [List.map_map]
      apply List.map_congr_left
      intro p hp
      obtain ⟨r, b1, b2, b3⟩ := hback (partOf t s res) p.1 _ (by rw [s4]; exact List.mem_append.2 (.inr (List.mem_map.2 ⟨p, hp, rfl⟩)))
      obtain ⟨r', b1', b2', b3'⟩ := hback (partOf t s res') p.1 _ (by rw [s4'']; exact List.mem_append.2 (.inr (List.mem_map.2 ⟨p, hp, rfl⟩)))
      obtain ⟨y, z1, z2⟩ := hrows0 r r' b1 b1' (by rw [b2, b2'])
      rw [b3] at z1
      rw [b3', ← Option.some.inj z1, b2] at z2
      simp only [Function.comp, movedF, Option.map_some, Option.some.inj z2]
  obtain ⟨-, -, -, -, hpi⟩ := runSingle_inv w args s _ _ k1
  obtain ⟨-, -, -, -, hpi'⟩ := runSingle_inv w' args' s _ _ k2
  rw [getPi_one_source _ _ _ s (run_sources w args s _ _ k1).1] at hpi
  rw [getPi_one_source _ _ _ s (run_sources w' args' s _ _ k2).1, hdraw, a4, a5, a6, a7,
    piSingle_selected _ (valuesMoved c v (toFTable (seriesFrame t s).hasDate (partOf t s res).data))
      (toFTable (plusFrame c v (seriesFrame t s)).hasDate (partOf t s res').data) rfl rfl rfl hrows, single_moved c hc, hpi] at hpi'
  have := (Except.ok.inj hpi').symm
  rw [this]
  apply List.map_congr_left
  intro r _
  unfold moveOf
  split_ifs <;> rfl

/-! ### A concrete case -/

/-- What is known beforehand: the trend of 2 per day, counted from day 4, and the step of ten on day 8. Both are taken out, and the rest is doubled. -/
def knownPart (_ : Option String) (d : Timestamp) : ℚ := combination steppedFeatures [-4, 0, -20] ((d - 4 * DAY) / (24 * 60 * 60 * 1000000000)) d

/-- The known part is a combination of the components of the model. -/
example : [(-4 : ℚ), 0, -20].length = steppedFeatures.length ∧
    ∀ d, knownPart (if steppedTable.hasSource then some "s" else none) d =
      combination steppedFeatures [-4, 0, -20] ((d - originOf steppedTable "s") / (24 * 60 * 60 * 1000000000)) d := by
  refine ⟨rfl, fun d => ?_⟩
  rw [show originOf steppedTable "s" = 4 * DAY from by decide +kernel]
  rfl

/-- What is left in the table: twice the level 1. The sample on day 4 does not count. -/
example : ((rowsOf (plusTable 2 knownPart steppedTable) "s").map fun r => (r.date / DAY, r.y)) =
    [(8, some 2), (5, some 2), (10, some 2), (4, some 100), (7, none), (9, some 2), (6, some 2)] := by decide +kernel

/-- Its forecast is the level; with the known part added and divided by two again it is the forecast for the original table. -/
example : ((runForecast { demoWorld with env := fun _ _ => knownEnv [0, 2, 0] } steppedArgs "" (plusTable 2 knownPart steppedTable)).toOption.bind id).map (fun r =>
    (((partOf steppedTable "s" r).data.filter fun q => !q.isActuals).map fun q => (q.date / DAY, q.y, q.y.map fun v => (v - knownPart none q.date) / 2))) =
    some [(5, some 2, some 3), (6, some 2, some 5), (7, some 2, some 7), (8, some 2, some 19), (9, some 2, some 21), (10, some 2, some 23),
      (11, some 2, some 25), (12, some 2, some 27), (13, some 2, some 29)] := by decide +kernel

end Anticipy
