import Verif.Lemmas.Additive
import Verif.Props.Balance
import Verif.Props.ComesTrue
import Verif.Props.IntervalRuns
import Verif.Props.RowOrder
import Verif.Props.Similar
import Verif.Props.Superposition
import Verif.Props.Weekly

/-
C73 to C77, C80, C88, C89, C91 and C96 for every sum of models whose parameters are coefficients of fixed features: constant, linear, weekday and month
seasonality, steps and spikes at given dates, dummy variables, calendars, lists of dates, yearly Fourier series.
-/
namespace Anticipy
open Spec
variable {K : Type} [Field K] [LinearOrder K]

/-- Telling observations are telling samples. -/
theorem telling_observed [FloorRing K] [IsStrictOrderedRing K] (w : World K) (args : RunArgs K) (source : String) (df : Frame K) (res : RunResult K)
    (h : runSingle w args source df = .ok res) (hdate : df.hasDate = true) (t0 : Timestamp) (hdays : CountsDays df t0) (feats : List (Feature K))
    (hid : Identifies feats t0 (observed res)) :
    ∀ df2, applyOutliers args.findOutliers (filterStart args.start df) = .ok df2 → Telling feats (usedRows (defaultWeights df2).1) := by
  intro df2 hOut p q hp hq he
  obtain ⟨df2', hOut', hobs⟩ := observed_rows w args source df res h hdate
  rw [hOut] at hOut'
  cases hOut'
  refine hid p q hp hq ?_
  intro a ha
  have hm : (a.date, a.y, a.weight) ∈ (usableRows (usedRows (defaultWeights df2).1)).map fun r => (r.date, r.y, r.weight) := by
    rw [← hobs]
    exact List.mem_map_of_mem ha
  obtain ⟨r, hr, e⟩ := List.mem_map.1 hm
  have e1 : r.date = a.date := congrArg Prod.fst e
  obtain ⟨-, -, -, -, u5⟩ := used_rows args.findOutliers args.start df df2 hOut
  obtain ⟨q', hq', d1, d2, -⟩ := u5 r (List.mem_filter.1 hr).1
  have hx := hdays q' (List.mem_filter.1 hq').1
  have : (a.date - t0) / (24 * 60 * 60 * 1000000000) = r.x := by
    rw [← e1, d1, d2, hx]
    omega
  rw [this, ← e1]
  exact he r hr

/-- **C74, any additive model.** The series in another unit and with another origin: the forecasts follow. -/
theorem C74_additive [FloorRing K] [IsStrictOrderedRing K] (w w' : World K) (args args' : RunArgs K) (source source' : String) (df : Frame K) (c d : K)
    (hc : c ≠ 0) (res res' : RunResult K) (h : runSingle w args source df = .ok res) (h' : runSingle w' args' source' (rescaled c d df) = .ok res')
    (hstart : args'.start = args.start) (hout : args'.findOutliers = args.findOutliers)
    (m : ForecastModel K) (reg : Registry K) (feats : List (Feature K)) (hm : AddsUp m reg feats) (hlev : HasLevel feats) (hne : feats ≠ [])
    (hx : FitsExactly w args source df m reg) (hx' : FitsExactly w' args' source' df m reg)
    (hdate : df.hasDate = true) (t0 : Timestamp) (hdays : CountsDays df t0) (hnd : (df.rows.map Row.x).Nodup) (hid : Identifies feats t0 (observed res))
    (r r' : DRow K) (hr : ForecastOf res m.name r) (hr' : ForecastOf res' m.name r') (hsame : r'.date = r.date) :
    ∃ v, r.y = some v ∧ r'.y = some (c * v + d) :=
  follow_run w w' args args' source source' df c d hc res res' h h' hstart hout hx.minimum hx'.minimum m hm.unpinned reg _ (hm.inParameters hlev hne)
    hx.registered hx'.registered hx.only hx'.only hdate t0 hdays hnd r r' hr.1 hr'.1 hr.2.1 hr'.2.1 hr.2.2 hr'.2.2 hsame
    (telling_observed w args source df res h hdate t0 hdays feats hid)

/-- **C73, any additive model.** The forecasts are determined by the series. -/
theorem C73_additive [FloorRing K] [IsStrictOrderedRing K] (w w' : World K) (args args' : RunArgs K) (source source' : String) (df : Frame K)
    (res res' : RunResult K) (h : runSingle w args source df = .ok res) (h' : runSingle w' args' source' df = .ok res')
    (hstart : args'.start = args.start) (hout : args'.findOutliers = args.findOutliers)
    (m : ForecastModel K) (reg : Registry K) (feats : List (Feature K)) (hm : AddsUp m reg feats) (hlev : HasLevel feats) (hne : feats ≠ [])
    (hx : FitsExactly w args source df m reg) (hx' : FitsExactly w' args' source' df m reg)
    (hdate : df.hasDate = true) (t0 : Timestamp) (hdays : CountsDays df t0) (hnd : (df.rows.map Row.x).Nodup) (hid : Identifies feats t0 (observed res))
    (r r' : DRow K) (hr : ForecastOf res m.name r) (hr' : ForecastOf res' m.name r') (hsame : r'.date = r.date) : r'.y = r.y := by
  obtain ⟨v, e1, e2⟩ := C74_additive w w' args args' source source' df 1 0 one_ne_zero res res' h (by rw [rescaled_same]; exact h') hstart hout m reg feats hm
    hlev hne hx hx' hdate t0 hdays hnd hid r r' hr hr' hsame
  rw [e1, e2, one_mul, add_zero]

/-- **C75, any additive model.** The forecast for a combination of series is the combination of the forecasts. -/
theorem C75_additive [FloorRing K] [IsStrictOrderedRing K] (w w' w'' : World K) (args args' args'' : RunArgs K) (source source' source'' : String)
    (df : Frame K) (u v : Int → K) (a b : K) (res res' res'' : RunResult K) (h : runSingle w args source (valued u df) = .ok res)
    (h' : runSingle w' args' source' (valued v df) = .ok res') (h'' : runSingle w'' args'' source'' (valued (fun x => a * u x + b * v x) df) = .ok res'')
    (hstart' : args'.start = args.start) (hstart'' : args''.start = args.start) (hout : args.findOutliers = false) (hout' : args'.findOutliers = false)
    (hout'' : args''.findOutliers = false)
    (m : ForecastModel K) (reg : Registry K) (feats : List (Feature K)) (hm : AddsUp m reg feats) (hlev : HasLevel feats) (hne : feats ≠ [])
    (hx : FitsExactly w args source df m reg) (hx' : FitsExactly w' args' source' df m reg) (hx'' : FitsExactly w'' args'' source'' df m reg)
    (hdate : df.hasDate = true) (t0 : Timestamp) (hdays : CountsDays df t0) (hnd : (df.rows.map Row.x).Nodup) (hid : Identifies feats t0 (observed res''))
    (r r' r'' : DRow K) (hr : ForecastOf res m.name r) (hr' : ForecastOf res' m.name r') (hr'' : ForecastOf res'' m.name r'')
    (hsame' : r'.date = r.date) (hsame'' : r''.date = r.date) :
    ∃ y y', r.y = some y ∧ r'.y = some y' ∧ r''.y = some (a * y + b * y') := by
  refine superposition_run w w' w'' args args' args'' source source' source'' df u v a b res res' res'' h h' h'' hstart' hstart'' hout hout' hout''
    hx.minimum hx'.minimum hx''.minimum m hm.unpinned reg _ (hm.inParameters hlev hne) (by rw [← hm.count]; exact combination_linear feats)
    hx.registered hx'.registered hx''.registered hx.only hx'.only hx''.only hdate t0 hdays hnd r r' r'' hr.1 hr'.1 hr''.1 hr.2.1 hr'.2.1 hr''.2.1
    hr.2.2 hr'.2.2 hr''.2.2 hsame' hsame'' ?_
  have hd : CountsDays (valued (fun x => a * u x + b * v x) df) t0 := by
    intro q hq
    obtain ⟨q', hq', rfl⟩ := List.mem_map.1 hq
    exact hdays q' hq'
  have := telling_observed w'' args'' source'' (valued (fun x => a * u x + b * v x) df) res'' h'' hdate t0 hd feats hid
    (valued (fun x => a * u x + b * v x) (filterStart args.start df)) (by rw [hout'', hstart'', filterStart_valued]; rfl)
  rw [defaultWeights_valued, usedRows_valued] at this
  exact this

/-- **C76, any additive model.** Weights count relative to each other. -/
theorem C76_additive [FloorRing K] [IsStrictOrderedRing K] (w w' : World K) (args args' : RunArgs K) (source source' : String) (df : Frame K) (k : K)
    (hk : 0 < k) (hw : df.hasWeight = true) (res res' : RunResult K) (h : runSingle w args source df = .ok res)
    (h' : runSingle w' args' source' (reweighted k df) = .ok res')
    (hstart : args'.start = args.start) (hout : args'.findOutliers = args.findOutliers)
    (m : ForecastModel K) (reg : Registry K) (feats : List (Feature K)) (hm : AddsUp m reg feats) (hlev : HasLevel feats) (hne : feats ≠ [])
    (hx : FitsExactly w args source df m reg) (hx' : FitsExactly w' args' source' df m reg)
    (hdate : df.hasDate = true) (t0 : Timestamp) (hdays : CountsDays df t0) (hnd : (df.rows.map Row.x).Nodup) (hid : Identifies feats t0 (observed res))
    (r r' : DRow K) (hr : ForecastOf res m.name r) (hr' : ForecastOf res' m.name r') (hsame : r'.date = r.date) : r'.y = r.y := by
  obtain ⟨v, e1, e2⟩ := similar_run w w' args args' source source' df (reweighted k df) 0 1 0 one_ne_zero res res' h h'
    (reweighted_stages k hk df hw args args' hstart hout) hx.minimum hx'.minimum m hm.unpinned reg _
    (hm.inParameters hlev hne) (by intro p x t; rw [add_zero]) hx.registered hx'.registered
    hx.only (by rw [runFreq_reweighted]; exact hx'.only) hdate hdate t0 hdays
    (reweighted_days k df t0 hdays) hnd r r' hr.1 hr'.1 hr.2.1 hr'.2.1 hr.2.2 hr'.2.2 (by rw [add_zero]; exact hsame)
    (telling_observed w args source df res h hdate t0 hdays feats hid)
  rw [e1, e2, one_mul, add_zero]

/-- **C77, any additive model** whose features repeat after the time by which all dates are moved: the forecasts move along. -/
theorem C77_additive [FloorRing K] [IsStrictOrderedRing K] (w w' : World K) (args args' : RunArgs K) (source source' : String) (df : Frame K) (s : Int)
    (res res' : RunResult K) (h : runSingle w args source df = .ok res)
    (h' : runSingle w' args' source' (moved s df) = .ok res')
    (hstart : args'.start = args.start.map fun t => t + s) (hout : args'.findOutliers = args.findOutliers)
    (m : ForecastModel K) (reg : Registry K) (feats : List (Feature K)) (hm : AddsUp m reg feats) (hlev : HasLevel feats) (hne : feats ≠ [])
    (hper : Periodic feats s)
    (hx : FitsExactly w args source df m reg) (hx' : FitsExactly w' args' source' (moved s df) m reg)
    (hdate : df.hasDate = true) (t0 : Timestamp) (hdays : CountsDays df t0) (hnd : (df.rows.map Row.x).Nodup) (hid : Identifies feats t0 (observed res))
    (r r' : DRow K) (hr : ForecastOf res m.name r) (hr' : ForecastOf res' m.name r') (hsame : r'.date = r.date + s) : r'.y = r.y := by
  have hshift : ∀ p x t, combination feats p x (t + s) = combination feats p x t := by
    intro p x t
    unfold combination
    congr 1
    apply List.ext_getElem (by simp)
    intro i h1 h2
    simp only [List.getElem_zipWith]
    rw [hper _ (List.getElem_mem _)]
  obtain ⟨v, e1, e2⟩ := similar_run w w' args args' source source' df (moved s df) s 1 0 one_ne_zero res res' h h'
    (moved_stages s df args args' hstart hout) hx.minimum hx'.minimum m hm.unpinned reg _
    (hm.inParameters hlev hne) hshift hx.registered hx'.registered
    hx.only hx'.only hdate hdate t0 hdays
    (moved_days s df t0 hdays) hnd r r' hr.1 hr'.1 hr.2.1 hr'.2.1 hr.2.2 hr'.2.2 hsame
    (telling_observed w args source df res h hdate t0 hdays feats hid)
  rw [e1, e2, one_mul, add_zero]

/-- **C88, any additive model.** The errors of the fit are orthogonal to every feature. -/
theorem C88_additive [FloorRing K] [IsStrictOrderedRing K] (w : World K) (args : RunArgs K) (source : String) (df : Frame K)
    (res : RunResult K) (h : runSingle w args source df = .ok res)
    (m : ForecastModel K) (reg : Registry K) (feats : List (Feature K)) (hm : AddsUp m reg feats) (hlev : HasLevel feats) (hne : feats ≠ [])
    (hx : FitsExactly w args source df m reg)
    (hdate : df.hasDate = true) (t0 : Timestamp) (hdays : CountsDays df t0) (hnd : (df.rows.map Row.x).Nodup) (hid : Identifies feats t0 (observed res))
    (r0 : DRow K) (hr : ForecastOf res m.name r0) :
    ∃ p : List K, p.length = feats.length ∧
      ForecastsAre res m.name (fun t => combination feats p ((t - t0) / (24 * 60 * 60 * 1000000000)) t) ∧
      ∀ φ ∈ feats, errorSum res (fun t => combination feats p ((t - t0) / (24 * 60 * 60 * 1000000000)) t)
        (fun t => φ ((t - t0) / (24 * 60 * 60 * 1000000000)) t) = 0 := by
  obtain ⟨p, h1, h2, h3⟩ := balanced_run w args source df res h hx.minimum m hm.unpinned reg _ (hm.inParameters hlev hne)
    (by rw [← hm.count]; exact combination_linear feats) hx.registered hx.only hdate t0 hdays hnd r0 hr.1 hr.2.1 hr.2.2
    (telling_observed w args source df res h hdate t0 hdays feats hid)
  refine ⟨p, by rw [h1, hm.count], h2, ?_⟩
  intro φ hφ
  obtain ⟨l1, l2, rfl⟩ := List.append_of_mem hφ
  have zero : ∀ (f : List (Feature K)) x t, combination f (List.replicate f.length 0) x t = 0 := by
    intro f x t
    unfold combination
    induction f with
    | nil => rfl
    | cons φ f ih =>
      rw [List.length_cons, List.replicate_succ, List.zipWith_cons_cons, List.sum_cons, ih]
      ring
  have pick : ∀ x t, combination (l1 ++ φ :: l2) (List.replicate l1.length 0 ++ 1 :: List.replicate l2.length 0) x t = φ x t := by
    intro x t
    rw [combination_append _ _ _ _ (by simp), zero]
    have := zero l2 x t
    unfold combination at this ⊢
    rw [List.zipWith_cons_cons, List.sum_cons, this]
    ring
  have := h3 (List.replicate l1.length 0 ++ 1 :: List.replicate l2.length 0) (by rw [← hm.count]; simp)
  simp only [pick] at this
  exact this

/-- **C89, any additive model.** Samples that confirm the forecast do not change it. -/
theorem C89_additive [FloorRing K] [IsStrictOrderedRing K] (w w' : World K) (args args' : RunArgs K) (source source' : String) (df : Frame K)
    (extra : List (Row K)) (res res' : RunResult K) (h : runSingle w args source df = .ok res) (h' : runSingle w' args' source' (extended df extra) = .ok res')
    (hstart : args'.start = args.start) (hout : args.findOutliers = false) (hout' : args'.findOutliers = false)
    (m : ForecastModel K) (reg : Registry K) (feats : List (Feature K)) (hm : AddsUp m reg feats) (hlev : HasLevel feats) (hne : feats ≠ [])
    (hx : FitsExactly w args source df m reg) (hx' : FitsExactly w' args' source' (extended df extra) m reg)
    (hdate : df.hasDate = true) (t0 : Timestamp) (hdays : CountsDays (extended df extra) t0) (hnd : ((extended df extra).rows.map Row.x).Nodup)
    (hid : Identifies feats t0 (observed res)) (hcomes : ComesTrue res m.name extra)
    (r r' : DRow K) (hr : ForecastOf res m.name r) (hr' : ForecastOf res' m.name r') (hsame : r'.date = r.date) : r'.y = r.y :=
  confirmed_run w w' args args' source source' df extra res res' h h' hstart hout hout' hx.minimum hx'.minimum m hm.unpinned reg _
    (hm.inParameters hlev hne) hx.registered hx'.registered hx.only hx'.only hdate t0 hdays hnd hcomes r r' hr.1 hr'.1 hr.2.1 hr'.2.1 hr.2.2 hr'.2.2 hsame
    (telling_observed w args source df res h hdate t0 (fun q hq => hdays q (List.mem_append_left _ hq)) feats hid)

/-- **C91, any additive model.** Prediction intervals follow a change of unit. -/
theorem C91_additive [FloorRing K] [IsStrictOrderedRing K] (w w' : World K) (args args' : RunArgs K) (source : String) (df : Frame K) (c d : K)
    (hc : c ≠ 0) (res res' : RunResult K) (h : runSingle w args source df = .ok res) (h' : runSingle w' args' source (rescaled c d df) = .ok res')
    (hargs : args'.start = args.start ∧ args'.findOutliers = args.findOutliers ∧ args'.years = args.years ∧ args'.nCum = args.nCum ∧
      args'.q1 = args.q1 ∧ args'.q2 = args.q2 ∧ args'.widening = args.widening) (hdraw : w'.draw source = w.draw source)
    (m : ForecastModel K) (hma : m.name ≠ "actuals") (reg : Registry K) (feats : List (Feature K)) (hm : AddsUp m reg feats) (hlev : HasLevel feats)
    (hne : feats ≠ []) (hx : FitsExactly w args source df m reg) (hx' : FitsExactly w' args' source df m reg)
    (hnames : ∀ df' cand, candidates w.ch args.models df' (runFreq df) = .ok cand → (cand.2.map ForecastModel.name).Nodup)
    (hnames' : ∀ df' cand, candidates w'.ch args'.models df' (runFreq df) = .ok cand → (cand.2.map ForecastModel.name).Nodup)
    (hdate : df.hasDate = true) (t0 : Timestamp) (hdays : CountsDays df t0) (hnd : (df.rows.map Row.x).Nodup) (hid : Identifies feats t0 (observed res))
    (hb : ∃ r, ForecastOf res m.name r ∧ r.isBest = true) (hb' : ∃ r, ForecastOf res' m.name r ∧ r.isBest = true) :
    res'.forecast = res.forecast.map (if 0 < c then intervalMoved c fun _ => d else intervalMirrored c fun _ => d) := by
  obtain ⟨r, hr, hbr⟩ := hb
  obtain ⟨r', hr', hbr'⟩ := hb'
  exact follow_table w w' args args' source df c d hc res res' h h' hargs hdraw hx.minimum hx'.minimum m hma hm.unpinned reg _
    (hm.inParameters hlev hne) hx.registered hx'.registered hx.only hx'.only hnames hnames' hdate hnd ⟨r, hr.1, hr.2.1, hbr, hr.2.2⟩
    ⟨r', hr'.1, hr'.2.1, hbr', hr'.2.2⟩ (telling_observed w args source df res h hdate t0 hdays feats hid)

/-- **C96.** A series that is an exact combination of the features of an additive model from the starting date on (in the samples that count) is continued
exactly by that model, if the samples tell the combinations apart. -/
theorem C96_continued [FloorRing K] [IsStrictOrderedRing K] (w : World K) (args : RunArgs K) (source : String) (df : Frame K) (res : RunResult K)
    (h : runSingle w args source df = .ok res)
    (m : ForecastModel K) (reg : Registry K) (feats : List (Feature K)) (hm : AddsUp m reg feats) (hne : feats ≠ [])
    (hx : FitsExactly w args source df m reg)
    (hdate : df.hasDate = true) (t0 : Timestamp) (hdays : CountsDays df t0) (hnd : (df.rows.map Row.x).Nodup) (hid : Identifies feats t0 (observed res))
    (p : List K) (hp : p.length = feats.length)
    (hexact : ∀ r ∈ kept args.start df, (∃ v, givenWeight df r = some v ∧ 0 < v) → ∀ v, r.y = some v → v = combination feats p r.x r.date) :
    ForecastsAre res m.name (fun t => combination feats p ((t - t0) / (24 * 60 * 60 * 1000000000)) t) := by
  have hscale : ∀ xs, scaleX m xs = xs.map fun x : Int => (x : K) := by
    intro xs
    unfold scaleX
    rw [if_neg]
    rintro (h' | h')
    · exact hm.named.2.1 h'
    · exact hm.named.2.2 h'
  have bd : ∀ args b, m.fBounds args = .ok b → b.lo = List.replicate m.nParams .ninf ∧ b.hi = List.replicate m.nParams .pinf := by
    intro args b hb
    obtain ⟨a, ha⟩ := hm.bounds args
    rw [ha] at hb
    rw [← Except.ok.inj hb]
    exact ⟨rfl, rfl⟩
  intro r hr hact hname
  refine continue_model w args source df res h hx.minimum m hm.unpinned (by rw [← hm.count]; simpa using hne) hx.only reg hx.registered
    (combination feats) (fun ctx xs ds p h1 => hm.value ctx xs ds p (by rw [h1, hscale])) (by intro args b hb; rw [(bd args b hb).1]; simp) p ?_ hdate t0
    hdays hnd hexact ?_ r hr hact hname
  · intro args b hb
    obtain ⟨a, ha⟩ := hm.bounds args
    rw [ha] at hb
    rw [← Except.ok.inj hb]
    exact (admissible_default _ p _).2 (by rw [hp, hm.count])
  · rintro used q ⟨df2, hOut, rfl⟩ hq - - - - he
    exact telling_observed w args source df res h hdate t0 hdays feats hid df2 hOut q p (by rw [hq, hm.count]) hp he

/-! ### Order of rows -/

/-- Observations are a whole number of days apart. -/
theorem observed_days [FloorRing K] [IsStrictOrderedRing K] (w : World K) (args : RunArgs K) (source : String) (df : Frame K) (res : RunResult K)
    (h : runSingle w args source df = .ok res) (hdate : df.hasDate = true) (t0 : Timestamp) (hdays : CountsDays df t0) :
    ∀ a ∈ observed res, (24 * 60 * 60 * 1000000000 : Int) ∣ a.date - t0 := by
  intro a ha
  obtain ⟨df2, hOut, hobs⟩ := observed_rows w args source df res h hdate
  have hm : (a.date, a.y, a.weight) ∈ (usableRows (usedRows (defaultWeights df2).1)).map fun r => (r.date, r.y, r.weight) := by
    rw [← hobs]
    exact List.mem_map_of_mem ha
  obtain ⟨r, hr, e⟩ := List.mem_map.1 hm
  have e1 : r.date = a.date := congrArg Prod.fst e
  obtain ⟨-, -, -, -, u5⟩ := used_rows args.findOutliers args.start df df2 hOut
  obtain ⟨q', hq', d1, d2, -⟩ := u5 r (List.mem_filter.1 hr).1
  have hx := hdays q' (List.mem_filter.1 hq').1
  exact ⟨q'.x, by rw [← e1, d1, hx]; ring⟩

omit [LinearOrder K] in
/-- Features of the date only do not depend on where the coordinate starts. -/
theorem noOrigin_dateOnly (feats : List (Feature K)) (h : ∀ φ ∈ feats, ∀ x x' t, φ x t = φ x' t) : NoOrigin feats.length (combination feats) := by
  intro k
  refine ⟨id, fun p hp => ⟨hp, ?_⟩⟩
  intro x t
  unfold combination
  congr 1
  apply List.ext_getElem (by simp)
  intro i h1 h2
  simp only [List.getElem_zipWith, id]
  rw [h _ (List.getElem_mem _) (x + k) x]

omit [LinearOrder K] in
/-- A straight line has another level if the coordinate starts elsewhere. -/
theorem noOrigin_line : NoOrigin (lineFeatures (K := K)).length (combination (lineFeatures (K := K))) := by
  intro k
  refine ⟨fun p => [p.getD 0 0, p.getD 1 0 - p.getD 0 0 * (k : K)], fun p hp => ⟨rfl, ?_⟩⟩
  intro x t
  obtain ⟨a, b, rfl⟩ := two_params p hp
  simp only [combination, lineFeatures, List.getD_cons_zero, List.getD_cons_succ, List.zipWith_cons_cons, List.zipWith_nil_right, List.sum_cons, List.sum_nil]
  push_cast
  ring

omit [LinearOrder K] in
theorem noOrigin_append (f1 f2 : List (Feature K)) (h1 : NoOrigin f1.length (combination f1)) (h2 : NoOrigin f2.length (combination f2)) :
    NoOrigin (f1 ++ f2).length (combination (f1 ++ f2)) := by
  intro k
  obtain ⟨T1, e1⟩ := h1 k
  obtain ⟨T2, e2⟩ := h2 k
  refine ⟨fun p => T1 (p.take f1.length) ++ T2 (p.drop f1.length), fun p hp => ?_⟩
  have l1 : (p.take f1.length).length = f1.length := by rw [List.length_append] at hp; simp; omega
  have l2 : (p.drop f1.length).length = f2.length := by rw [List.length_append] at hp; simp; omega
  refine ⟨by rw [List.length_append, List.length_append, (e1 _ l1).1, (e2 _ l2).1], ?_⟩
  intro x t
  rw [combination_append _ _ _ _ (e1 _ l1).1, (e1 _ l1).2, (e2 _ l2).2, ← combination_append _ _ _ _ l1, List.take_append_drop]

omit [LinearOrder K] in
/-- Where the coordinate starts has no effect on whether the observations tell the combinations apart. -/
theorem identifies_origin (feats : List (Feature K)) (h : NoOrigin feats.length (combination feats)) (t0 t1 : Timestamp) (obs : List (DRow K))
    (hid : Identifies feats t0 obs) (h0 : ∀ r ∈ obs, (24 * 60 * 60 * 1000000000 : Int) ∣ r.date - t0)
    (h1 : ∀ r ∈ obs, (24 * 60 * 60 * 1000000000 : Int) ∣ r.date - t1) : Identifies feats t1 obs := by
  intro p q hp hq he
  rcases obs with _ | ⟨a, obs⟩
  · exact hid p q hp hq (by simp)
  obtain ⟨k, hk⟩ : ∃ k : Int, t1 - t0 = 24 * 60 * 60 * 1000000000 * k := by
    have : (24 * 60 * 60 * 1000000000 : Int) ∣ (a.date - t0) - (a.date - t1) := dvd_sub (h0 a (by simp)) (h1 a (by simp))
    obtain ⟨k, hk⟩ := this
    exact ⟨k, by rw [← hk]; ring⟩
  obtain ⟨T, hT⟩ := h k
  have key := hid (T p) (T q) (hT p hp).1 (hT q hq).1 (by
    intro r hr
    have e : (r.date - t0) / (24 * 60 * 60 * 1000000000) = (r.date - t1) / (24 * 60 * 60 * 1000000000) + k := by omega
    rw [e, (hT p hp).2, (hT q hq).2]
    exact he r hr)
  intro x t
  rw [← (hT p hp).2, ← (hT q hq).2, key]

/-- **C80, any additive model** that does not depend on where the coordinate starts. The rows of the table in any order: the forecast for a source and date
is the same. -/
theorem C80_additive [FloorRing K] [IsStrictOrderedRing K] (w w' : World K) (args args' : RunArgs K) (id id' : String) (t t' : STable K)
    (hre : Reordered t t') (ht : OnePerDate t) (res res' : RunResult K) (h : runForecast w args id t = .ok (some res))
    (h' : runForecast w' args' id' t' = .ok (some res')) (hstart : args'.start = args.start) (hout : args'.findOutliers = args.findOutliers)
    (m : ForecastModel K) (reg : Registry K) (feats : List (Feature K)) (hm : AddsUp m reg feats) (hlev : HasLevel feats) (hne : feats ≠ [])
    (horig : NoOrigin feats.length (combination feats))
    (hmin : ∀ s i, FindsMinimum (w.env s i)) (hmin' : ∀ s i, FindsMinimum (w'.env s i))
    (hreg : ∀ s i, Registered (w.env s i).globalCache reg m) (hreg' : ∀ s i, Registered (w'.env s i).globalCache reg m)
    (hcand : ∀ df fr cand, candidates w.ch args.models df fr = .ok cand → ∀ m' ∈ cand.2, m'.name = m.name → m' = m)
    (hcand' : ∀ df fr cand, candidates w'.ch args'.models df fr = .ok cand → ∀ m' ∈ cand.2, m'.name = m.name → m' = m)
    (r r' : DRow K) (hr : ForecastOf res m.name r) (hr' : ForecastOf res' m.name r')
    (t0 : Timestamp) (h0 : ∀ a ∈ observed res', (24 * 60 * 60 * 1000000000 : Int) ∣ a.date - t0)
    (hid : Identifies feats t0 ((observed res').filter fun a => a.source == r'.source))
    (hsrc : t.hasSource = true → r'.source = r.source) (hsame : r'.date = r.date) : r'.y = r.y := by
  refine agreeing_run w w' args args' id id' t t' (hre.agree _) ht (onePerDate_reordered t t' hre ht) res res' h h' hstart hout hmin hmin' m hm.unpinned reg _
    (hm.inParameters hlev hne) (by rw [← hm.count]; exact horig) hreg hreg' hcand hcand' r r' hr.1 hr'.1 hr.2.1 hr'.2.1 hsrc hr.2.2 hr'.2.2 hsame ?_
  intro df part t1 hp hall hdate hdays
  refine telling_observed w' args' r'.source df part hp hdate t1 hdays feats ?_
  have hsub : ∀ a ∈ (observed res').filter (fun a => a.source == r'.source), a ∈ observed part := by
    intro a ha
    rw [List.mem_filter] at ha
    obtain ⟨ha, hs⟩ := ha
    unfold observed at ha ⊢
    rw [List.mem_filter] at ha ⊢
    exact ⟨hall a ha.1 (by simpa using hs), ha.2⟩
  have h1 := identifies_origin feats horig t0 t1 _ hid (fun a ha => h0 a (List.mem_filter.1 ha).1)
    (fun a ha => observed_days w' args' r'.source df part hp hdate t1 hdays a (hsub a ha))
  intro p q hp hq he
  exact h1 p q hp hq fun a ha => he a (hsub a ha)

/-! ### A concrete case -/

/-- A line with a step on day 8. -/
def steppedModel : ForecastModel ℚ := modelLinear.add (getModelStepDate (fun _ => "1970-01-09") (8 * DAY))
/-- Its features. -/
def steppedFeatures : List (Feature ℚ) := lineFeatures ++ flagFeature fun t => if 8 * DAY ≤ t then 1 else 0

/-- Values `2 x + 1`, ten more from day 8 on; the first sample does not count and has another value, one is missing. -/
def steppedFrame : Frame ℚ := ⟨true, true, [⟨4 * DAY, 0, some 50, some 0⟩, ⟨5 * DAY, 1, some 3, some 1⟩, ⟨6 * DAY, 2, some 5, some 1⟩, ⟨7 * DAY, 3, none, some 1⟩,
  ⟨8 * DAY, 4, some 19, some 2⟩, ⟨9 * DAY, 5, some 21, some 1⟩, ⟨10 * DAY, 6, some 23, some 1⟩]⟩

/-- The exact coefficients. -/
def steppedWorld : World ℚ := { demoWorld with env := fun _ _ => knownEnv [2, 1, 10] }

/-- The candidates. -/
def steppedArgs : RunArgs ℚ := demoArgs [steppedModel] (some [])

example : AddsUp steppedModel (fun _ => none) steppedFeatures := (addsUp_linear _).add (addsUp_stepDate _ _ _)

example : HasLevel steppedFeatures := hasLevel_left _ _ ⟨[0, 1], rfl, by intro x t; simp [combination, lineFeatures]⟩

example : NoOrigin steppedFeatures.length (combination steppedFeatures) :=
  noOrigin_append _ _ noOrigin_line (noOrigin_dateOnly _ (by simp [flagFeature]))

/-- The five samples that count tell slope, level and step apart. -/
example : (((runSingle steppedWorld steppedArgs "s" steppedFrame).toOption.map fun r => (observed r).map DRow.date) =
    some [5 * DAY, 6 * DAY, 8 * DAY, 9 * DAY, 10 * DAY]) ∧
    ∀ obs : List (DRow ℚ), obs.map DRow.date = [5 * DAY, 6 * DAY, 8 * DAY, 9 * DAY, 10 * DAY] → Identifies steppedFeatures (4 * DAY) obs := by
  refine ⟨by decide +kernel, ?_⟩
  intro obs hobs p q hp hq he
  obtain ⟨a, b, c, rfl⟩ : ∃ a b c, p = [a, b, c] := by
    match p, hp with
    | [a, b, c], _ => exact ⟨a, b, c, rfl⟩
  obtain ⟨a', b', c', rfl⟩ : ∃ a b c, q = [a, b, c] := by
    match q, hq with
    | [a, b, c], _ => exact ⟨a, b, c, rfl⟩
  have at' : ∀ t ∈ [5 * DAY, 6 * DAY, 8 * DAY, 9 * DAY, 10 * DAY], combination steppedFeatures [a, b, c] ((t - 4 * DAY) / (24 * 60 * 60 * 1000000000)) t =
      combination steppedFeatures [a', b', c'] ((t - 4 * DAY) / (24 * 60 * 60 * 1000000000)) t := by
    intro t ht
    rw [← hobs] at ht
    obtain ⟨r, hr, rfl⟩ := List.mem_map.1 ht
    exact he r hr
  have h1 := at' (5 * DAY) (by simp)
  have h2 := at' (6 * DAY) (by simp)
  have h3 := at' (8 * DAY) (by simp)
  simp [combination, steppedFeatures, lineFeatures, flagFeature, DAY] at h1 h2 h3
  have ha : a = a' := by linarith
  have hb : b = b' := by linarith
  have hc : c = c' := by linarith
  rw [ha, hb, hc]
  intros
  rfl

example : FitsExactly steppedWorld steppedArgs "s" steppedFrame steppedModel (fun _ => none) := by
  refine ⟨fun _ => knownEnv_minimum _, ?_, ?_⟩
  · intro df' cand h m' hm' _
    have e : candidates steppedWorld.ch steppedArgs.models df' (runFreq steppedFrame) = .ok (.add, [steppedModel]) := rfl
    rw [e] at h
    cases h
    simpa using hm'
  · intro i
    exact registered_compose _ _ _ _ _ ⟨by simp [modelLinear, mkModel], by simp [modelLinear, mkModel]⟩
      ⟨by simp [getModelStepDate, mkModel], by simp [getModelStepDate, mkModel]⟩

open Classical in
/-- Trend, weekdays and British holidays: a sum of the kind considered. -/
example : ∃ m : ForecastModel ℚ, modelCalendarUK = .ok m ∧ ∀ reg : Registry ℚ, reg "a_weekday" = some cacheWeekday → reg "mask_CalendarChristmasUK" = none →
    reg "mask_CalendarBankHolUK" = none → AddsUp ((modelLinear.add modelSeasonWday).add m) reg
      ((lineFeatures ++ indexFeatures weekday 6) ++ ([⟨"CalendarChristmasUK", christmasUK⟩, ⟨"CalendarBankHolUK", bankHolUK⟩] : List Calendar).flatMap fun d =>
        flagFeature fun t => if IsHoliday d.rules t then 1 else 0) := by
  have hr : ∀ d ∈ ([⟨"CalendarChristmasUK", christmasUK⟩, ⟨"CalendarBankHolUK", bankHolUK⟩] : List Calendar), ∀ r ∈ d.rules, NearYear r := by
    intro d hd
    simp only [List.mem_cons, List.not_mem_nil, or_false] at hd
    rcases hd with rfl | rfl
    · exact near_christmasUK
    · exact near_bankHolUK
  have hne : ∀ d ∈ ([⟨"CalendarChristmasUK", christmasUK⟩, ⟨"CalendarBankHolUK", bankHolUK⟩] : List Calendar), d.rules ≠ [] := by
    intro d hd
    simp only [List.mem_cons, List.not_mem_nil, or_false] at hd
    rcases hd with rfl | rfl <;> simp [christmasUK, bankHolUK]
  obtain ⟨m, h1, -⟩ := C54_params_partial (K := ℚ) ⟨"CalendarChristmasUK", christmasUK⟩ [⟨"CalendarBankHolUK", bankHolUK⟩] hne hr (some "calendar_uk")
  refine ⟨m, h1, fun reg g1 g2 g3 => ((addsUp_linear reg).add (addsUp_wday reg g1)).add (addsUp_calendars reg _ _ hne hr ?_ (some "calendar_uk") (by decide) ?_ m h1)⟩
  · intro d hd
    simp only [List.mem_cons, List.not_mem_nil, or_false] at hd
    rcases hd with rfl | rfl <;> decide
  · intro d hd
    simp only [List.mem_cons, List.not_mem_nil, or_false] at hd
    rcases hd with rfl | rfl
    · exact .inl g2
    · exact .inl g3

/-- The step is kept in the forecast. -/
example : ((runSingle steppedWorld steppedArgs "s" steppedFrame).toOption.map fun r =>
    ((r.data.filter fun q => !q.isActuals).map fun q => (q.date / DAY, q.y))) =
    some [(5, some 3), (6, some 5), (7, some 7), (8, some 19), (9, some 21), (10, some 23), (11, some 25), (12, some 27), (13, some 29)] := by decide +kernel

end Anticipy
