import Verif.Spec.Copies
import Verif.Props.UnitChoice
import Verif.Props.IntervalRuns

/-
C125: naive models only copy values.
-/
namespace Anticipy
open Spec
variable {K : Type} [Field K] [LinearOrder K]

/-- Predictions, transformed. -/
def arrTransformed (f : K → K) : Arr K → Arr K
  | .scalar v => .scalar (v.map f)
  | .vec l => .vec (l.map fun v => v.map f)

/-- Input of a model with transformed actuals. -/
def ctxTransformed (f : K → K) (ctx : Ctx K) : Ctx K := { ctx with actuals := ctx.actuals.map (transformed f) }

omit [LinearOrder K] in
theorem filterStart_transformed (f : K → K) (s : Option Timestamp) (df : Frame K) : filterStart s (transformed f df) = transformed f (filterStart s df) := by
  obtain ⟨hd, hw, rows⟩ := df
  cases s with
  | none => rfl
  | some d =>
    cases hd with
    | false => rfl
    | true =>
      simp only [filterStart, transformed, if_true, List.filter_map]
      rfl

theorem defaultWeights_transformed (f : K → K) (df : Frame K) :
    defaultWeights (transformed f df) = (transformed f (defaultWeights df).1, (defaultWeights df).2) := by
  obtain ⟨hd, hw, rows⟩ := df
  cases hw with
  | false =>
    simp only [defaultWeights, transformed, Bool.false_eq_true, if_false, List.map_map]
    rfl
  | true =>
    simp only [defaultWeights, transformed, if_true, List.filterMap_map]
    rfl

theorem usedRows_transformed (f : K → K) (df : Frame K) : usedRows (transformed f df) = transformed f (usedRows df) := by
  simp only [usedRows, transformed, List.filter_map]
  rfl

omit [LinearOrder K] in
theorem runFreq_transformed (f : K → K) (df : Frame K) : runFreq (transformed f df) = runFreq df := by
  have h2 : (transformed f df).rows.map Row.date = df.rows.map Row.date := by simp only [transformed, List.map_map]; rfl
  unfold runFreq
  rw [h2]
  rfl

omit [LinearOrder K] in
theorem interpolateDf_transformed (f : K → K) (df : Frame K) : interpolateDf (transformed f df) = (interpolateDf df).map (transformed f) := by
  obtain ⟨hd, hw, rows⟩ := df
  have h1 : (rows.map (sampleTransformed f)).map Row.date = rows.map Row.date := by rw [List.map_map]; rfl
  have h2 : (rows.map (sampleTransformed f)).map Row.x = rows.map Row.x := by rw [List.map_map]; rfl
  have hf : ∀ t, findRow (rows.map (sampleTransformed f)) t = (findRow rows t).map (sampleTransformed f) := by
    intro t
    unfold findRow
    rw [List.find?_map]
    rfl
  cases hd with
  | true =>
    unfold interpolateDf
    simp only [transformed, if_true, h1]
    by_cases hb : nuniqueDiff (dedupBy (fun t : Timestamp => t) (rows.map Row.date)) ≤ 1 ∧
        sparseDaily (detectFreq (rows.map Row.date)) (diffs (dedupBy (fun t : Timestamp => t) (rows.map Row.date))) = false
    · rw [if_pos hb, if_pos hb]; rfl
    rw [if_neg hb, if_neg hb]
    by_cases hdup : hasDup (rows.map Row.date) = true
    · rw [if_pos hdup, if_pos hdup]; rfl
    rw [if_neg hdup, if_neg hdup]
    cases listMin (rows.map Row.date) with
    | none => rfl
    | some a =>
      cases listMax (rows.map Row.date) with
      | none => rfl
      | some b =>
        dsimp only
        simp only [hf, List.map_map, Function.comp_def, Option.map_map]
        have e1 : (fun r : Row K => (((sampleTransformed f r).x : Int) : ℚ)) = fun r : Row K => ((r.x : Int) : ℚ) := rfl
        simp only [e1]
        generalize toIntCol _ = ti
        cases ti with
        | error e => rfl
        | ok xs =>
          simp only [Except.map, transformed, List.map_zipWith, List.zipWith_map_left]
          congr 2
          congr 1
          funext t x
          cases findRow rows t with
          | none => rfl
          | some r => rfl
  | false =>
    unfold interpolateDf
    simp only [transformed, Bool.false_eq_true, if_false, h2]
    by_cases hb : nuniqueDiff (dedupBy (fun t : Int => t) (rows.map Row.x)) ≤ 1
    · rw [if_pos hb, if_pos hb]; rfl
    rw [if_neg hb, if_neg hb]
    by_cases hdup : hasDup (rows.map Row.x) = true
    · rw [if_pos hdup, if_pos hdup]; rfl
    rw [if_neg hdup, if_neg hdup]
    cases listMin (rows.map Row.x) with
    | none => rfl
    | some a =>
      cases listMax (rows.map Row.x) with
      | none => rfl
      | some b =>
        dsimp only
        simp only [Except.map, transformed, List.map_map]
        congr 2
        apply List.map_congr_left
        intro i _
        simp only [Function.comp]
        rw [List.find?_map]
        have : ((fun r : Row K => decide (r.x = a + (i : Int))) ∘ sampleTransformed f) = fun r : Row K => decide (r.x = a + (i : Int)) := rfl
        rw [this]
        cases rows.find? (fun r => decide (r.x = a + (i : Int))) with
        | none => rfl
        | some r => rfl

theorem actuals_transformed (srt : SortAlg) (f : K → K) (df used : Frame K) :
    actualsInterpolated srt (transformed f df) (transformed f used) = (actualsInterpolated srt df used).map (transformed f) := by
  unfold actualsInterpolated
  rw [interpolateDf_transformed]
  cases interpolateDf df with
  | error e => rfl
  | ok d =>
    simp only [Except.map, bind, Except.bind, transformed]
    rw [srt.natural (fun a b : Row K => decide (a.x ≤ b.x)) (fun a b : Row K => decide (a.x ≤ b.x)) (sampleTransformed f) _ (fun _ _ _ _ => rfl)]
    congr 2
    rw [List.flatMap_map, List.map_flatMap]
    congr 1
    funext r
    unfold mergeWeight
    rw [List.filter_map]
    have : ((fun u : Row K => decide (u.x = (sampleTransformed f r).x)) ∘ sampleTransformed f) = fun u : Row K => decide (u.x = r.x) := rfl
    rw [this]
    cases used.rows.filter fun u => decide (u.x = r.x) with
    | nil => rfl
    | cons u l =>
      dsimp only
      rw [List.map_cons]
      dsimp only
      rw [← List.map_cons (f := sampleTransformed f), List.map_map, List.map_map]
      apply List.map_congr_left
      intro q _
      simp only [Function.comp]
      have e : (sampleTransformed f q).weight = q.weight := rfl
      rw [e]
      by_cases hq : 0 < q.weight.getD 0
      · rw [if_pos hq, if_pos hq]; rfl
      · rw [if_neg hq, if_neg hq]; rfl

/-- Naive forecasts of transformed values. -/
theorem naive_transformed (srt : SortAlg) (f : K → K) (ctx : Ctx K) (p p' : Params K) (mult : Bool) (a : Arr K) (h : fModelNaive srt ctx p mult = .ok a) :
    fModelNaive srt (ctxTransformed f ctx) p' mult = .ok (arrTransformed f a) := by
  obtain ⟨ax, ad, act, ca, hca⟩ := ctx
  have e0 : ctxTransformed f ⟨ax, ad, act, ca, hca⟩ = ⟨ax, ad, act.map (transformed f), ca, hca⟩ := rfl
  rw [e0]
  unfold fModelNaive at h ⊢
  dsimp only at h ⊢
  by_cases hh : hca = true
  · rw [if_pos hh] at h; cases h
  rw [if_neg hh] at h ⊢
  cases act with
  | none => cases h
  | some df =>
    obtain ⟨hd, hw, rows⟩ := df
    have e1 : (some (⟨hd, hw, rows⟩ : Frame K)).map (transformed f) = some ⟨hd, hw, rows.map (sampleTransformed f)⟩ := rfl
    rw [e1]
    simp only [bind, Except.bind] at h ⊢
    have hq : queries (⟨ax, ad, some ⟨hd, hw, rows.map (sampleTransformed f)⟩, ca, hca⟩ : Ctx K) = queries ⟨ax, ad, some ⟨hd, hw, rows⟩, ca, hca⟩ := rfl
    rw [hq]
    cases e2 : queries (⟨ax, ad, some ⟨hd, hw, rows⟩, ca, hca⟩ : Ctx K) with
    | error e => rw [e2] at h; cases h
    | ok qs =>
      rw [e2] at h
      dsimp only at h ⊢
      by_cases hdd : (hd && ad.isNone) = true
      · rw [if_pos hdd] at h; cases h
      rw [if_neg hdd] at h ⊢
      have h := Except.ok.inj h
      subst h
      let g : XY K → XY K := fun e => { e with y := e.y.map fun v => f v }
      have hm : ∀ (hd : Bool) (l : List (Row K)), outerMerge hd (l.map (sampleTransformed f)) qs = (outerMerge hd l qs).map g := by
        intro hd l
        unfold outerMerge
        rw [List.map_append, List.flatMap_map, List.map_flatMap]
        congr 1
        · congr 1
          funext r
          have : joins hd (sampleTransformed f r) = joins hd r := rfl
          rw [this]
          cases qs.filter (joins hd r) with
          | nil => rfl
          | cons q qs =>
            simp only [List.map_map]
            rfl
        · rw [List.map_map]
          simp only [List.any_map]
          rfl
      have hs := srt.natural xyLe xyLe g (outerMerge hd (dedupBy Row.x rows) qs) (fun _ _ _ _ => rfl)
      rw [dedupBy_image (sampleTransformed f) Row.x Row.x (fun _ => rfl), hm, hs]
      generalize srt.run xyLe (outerMerge hd (dedupBy Row.x rows) qs) = s
      have hy : (s.map g).map XY.y = (s.map XY.y).map fun v => v.map fun a => f a := by simp [g]
      have hff : ffill (((shift1 (s.map XY.y))).map fun v => v.map fun a => f a) = (ffill (shift1 (s.map XY.y))).map fun v => v.map fun a => f a :=
        ffillFrom_image (fun a => f a) none _
      rw [hy, shift1_image, hff, bfill_image]
      generalize bfill (ffill (shift1 (s.map XY.y))) = ys
      simp only [arrTransformed]
      rw [List.zip_map, List.filter_map, List.map_map, List.map_map]
      congr 2

/-- Seasonal naive forecasts of transformed values. -/
theorem snaive_transformed (srt : SortAlg) (f : K → K) (ctx : Ctx K) (p p' : Params K) (mult : Bool) (a : Arr K) (h : fModelSnaiveWday srt ctx p mult = .ok a) :
    fModelSnaiveWday srt (ctxTransformed f ctx) p' mult = .ok (arrTransformed f a) := by
  obtain ⟨ax, ad, act, ca, hca⟩ := ctx
  have e0 : ctxTransformed f ⟨ax, ad, act, ca, hca⟩ = ⟨ax, ad, act.map (transformed f), ca, hca⟩ := rfl
  rw [e0]
  unfold fModelSnaiveWday at h ⊢
  dsimp only at h ⊢
  by_cases hh : hca = true
  · rw [if_pos hh] at h; cases h
  rw [if_neg hh] at h ⊢
  cases act with
  | none => cases h
  | some df =>
    obtain ⟨hd, hw, rows⟩ := df
    have e1 : (some (⟨hd, hw, rows⟩ : Frame K)).map (transformed f) = some ⟨hd, hw, rows.map (sampleTransformed f)⟩ := rfl
    rw [e1]
    dsimp only at h ⊢
    by_cases hdd : (!hd) = true
    · rw [if_pos hdd] at h; cases h
    rw [if_neg hdd] at h ⊢
    cases ad with
    | none => cases h
    | some ds =>
      dsimp only at h ⊢
      by_cases hlen : ds.length ≠ ax.length
      · rw [if_pos hlen] at h; cases h
      rw [if_neg hlen] at h ⊢
      have h := Except.ok.inj h
      subst h
      let e : WdayRow K → WdayRow K := fun r => ⟨sampleTransformed f r.row, r.yOut.map fun v => f v⟩
      let g : PointOut K → PointOut K := fun r => { r with yOut := r.yOut.map fun v => f v }
      have hadd : ∀ l : List (Row K), addYOut (l.map (sampleTransformed f)) = (addYOut l).map e := by
        intro l
        unfold addYOut
        have hy : (l.map (sampleTransformed f)).map Row.y = (l.map Row.y).map fun v => v.map fun a => f a := by simp [sampleTransformed]
        have hff : ffill (((shift1 (l.map Row.y))).map fun v => v.map fun a => f a) = (ffill (shift1 (l.map Row.y))).map fun v => v.map fun a => f a :=
          ffillFrom_image (fun a => f a) none _
        rw [hy, shift1_image, hff, List.zipWith_map, List.map_zipWith]
      have hact : fillnaWday srt (dedupBy Row.x (rows.map (sampleTransformed f))) = (fillnaWday srt (dedupBy Row.x rows)).map e := by
        rw [dedupBy_image (sampleTransformed f) Row.x Row.x (fun _ => rfl)]
        unfold fillnaWday
        rw [← srt.natural wdayRowLe wdayRowLe e _ (fun _ _ _ _ => rfl), List.map_flatMap]
        congr 2
        funext w
        rw [List.filter_map, hadd]
        rfl
      rw [hact]
      generalize fillnaWday srt (dedupBy Row.x rows) = act
      have h1 : (act.map e).flatMap (fun r => ((ax.zip ds).filter fun p => decide (p.1 = (r.row.x : K)) && decide (p.2 = r.row.date)).map
          fun p => PointOut.mk p.1 r.yOut) = (act.flatMap fun r => ((ax.zip ds).filter fun p => decide (p.1 = (r.row.x : K)) && decide (p.2 = r.row.date)).map
          fun p => PointOut.mk p.1 r.yOut).map g := by
        rw [List.flatMap_map, List.map_flatMap]
        congr 1
        funext r
        rw [List.map_map]
        rfl
      have hlast : ∀ w, lastWeek (act.map e) w = (lastWeek act w).map fun v => f v := by
        intro w
        unfold lastWeek
        rw [List.filter_map, List.getLast?_map]
        have : ((fun r : WdayRow K => decide (weekday r.row.date = w)) ∘ e) = fun r : WdayRow K => decide (weekday r.row.date = w) := rfl
        rw [this]
        cases (act.filter fun r => decide (weekday r.row.date = w)).getLast? with
        | none => rfl
        | some r =>
          simp only [Option.map_some, e, sampleTransformed]
          cases r.row.y <;> rfl
      have h2 : (((ax.zip ds).filter fun p => !(act.map e).any fun r => decide (r.row.date = p.2)).map
          fun p => PointOut.mk p.1 (lastWeek (act.map e) (weekday p.2))) = (((ax.zip ds).filter fun p => !act.any fun r => decide (r.row.date = p.2)).map
          fun p => PointOut.mk p.1 (lastWeek act (weekday p.2))).map g := by
        rw [List.map_map]
        simp only [List.any_map, hlast]
        rfl
      rw [h1, h2, srt.natural pointLe pointLe g _ (fun _ _ _ _ => rfl), srt.natural pointLe pointLe g _ (fun _ _ _ _ => rfl), ← List.map_append,
        List.map_map]
      simp only [arrTransformed]
      rw [List.map_map]
      rfl


/-- A model whose forecasts are made of values of the samples. -/
def OnlyCopies (m : ForecastModel K) : Prop :=
  ∀ (f : K → K) (ctx : Ctx K) (p p' : Params K) (a : Arr K), m.fModel ctx p false = .ok a → m.fModel (ctxTransformed f ctx) p' false = .ok (arrTransformed f a)

theorem naive_copies (srt : SortAlg) : OnlyCopies (modelNaive srt : ForecastModel K) := fun f ctx p p' a h => naive_transformed srt f ctx p p' false a h

theorem snaive_copies (srt : SortAlg) : OnlyCopies (modelSnaiveWday srt : ForecastModel K) := fun f ctx p p' a h => snaive_transformed srt f ctx p p' false a h

theorem extrapolate_steps (m : ForecastModel K) (params : List K) (hasDate : Bool) (start stop : Int) (freq : Option Freq) (years : ℚ) (x0 : Int) (act : Frame K) :
    extrapolate m params hasDate start stop freq years x0 act =
      match (if hasDate = true then sxExtrapolateDate start stop freq years x0 else .ok (sxExtrapolateNum start stop years x0)) with
      | .error e => .error e
      | .ok sx => match m.fModel { ax := scaleX m (sx.map Prod.snd), adate := if hasDate then some (sx.map Prod.fst) else none, actuals := some act }
          (some params) false with
        | .error e => .error e
        | .ok a => seriesOf (sx.map Prod.fst) a := by
  unfold extrapolate
  cases hasDate <;> simp [bind, Except.bind] <;> split <;> simp_all
  split <;> simp_all

/-- Rows of the forecast of transformed values. -/
theorem forecastRows_transformed (f : K → K) (s s' : FitSetup K) (m : ForecastModel K) (hm : OnlyCopies m) (g g' : FitResult K) (rows rows' : List (DRow K))
    (hu : s'.used = transformed f s.used) (hact : s'.actuals = transformed f s.actuals) (hstop : s'.stop = s.stop) (hfreq : s'.freq = s.freq) (hyears : s'.years = s.years)
    (hg : g.isFit = true) (hg' : g'.isFit = true) (h : forecastRows s m g = .ok rows) (h' : forecastRows s' m g' = .ok rows') :
    rows'.map (fun r => (r.date, r.y)) = rows.map fun r => (r.date, r.y.map f) := by
  unfold forecastRows at h h'
  rw [if_pos hg] at h
  have hax : axisOf (transformed f s.used) = axisOf s.used := by
    unfold axisOf transformed
    simp only [List.map_map]
    rfl
  have hxs : (transformed f s.used).rows.map Row.x = s.used.rows.map Row.x := by
    unfold transformed
    simp only [List.map_map]
    rfl
  rw [if_pos hg', hu, hact, hstop, hfreq, hyears, hax, hxs] at h'
  cases h1 : listMin (axisOf s.used) with
  | none => rw [h1] at h; cases h
  | some start =>
    cases h2 : listMin (s.used.rows.map Row.x) with
    | none => rw [h1, h2] at h; cases h
    | some x0 =>
      rw [h1, h2] at h h'
      have hd : (transformed f s.used).hasDate = s.used.hasDate := rfl
      simp only [bind, Except.bind, extrapolate_steps] at h h'
      rw [hd] at h'
      cases h3 : (if s.used.hasDate = true then sxExtrapolateDate start s.stop s.freq s.years x0 else .ok (sxExtrapolateNum start s.stop s.years x0)) with
      | error e => rw [h3] at h; cases h
      | ok sx =>
        rw [h3] at h h'
        dsimp only at h h'
        cases h4 : m.fModel { ax := scaleX m (sx.map Prod.snd), adate := if s.used.hasDate then some (sx.map Prod.fst) else none, actuals := some s.actuals }
            (some g.params) false with
        | error e => rw [h4] at h; cases h
        | ok a =>
          have h5 := hm f _ _ (some g'.params) a h4
          have e0 : ctxTransformed f { ax := scaleX m (sx.map Prod.snd), adate := if s.used.hasDate then some (sx.map Prod.fst) else none, actuals := some s.actuals } =
            { ax := scaleX m (sx.map Prod.snd), adate := if s.used.hasDate then some (sx.map Prod.fst) else none, actuals := some (transformed f s.actuals) } := rfl
          rw [e0] at h5
          rw [h4] at h
          rw [h5] at h'
          dsimp only at h h'
          have hs : ∀ l, seriesOf (sx.map Prod.fst) a = .ok l → seriesOf (sx.map Prod.fst) (arrTransformed f a) = .ok (l.map fun p => (p.1, p.2.map f)) := by
            intro l hl
            cases a with
            | scalar v =>
              simp only [seriesOf] at hl
              have hl := Except.ok.inj hl
              subst hl
              simp only [arrTransformed, seriesOf, List.map_map]
              rfl
            | vec ys =>
              simp only [seriesOf] at hl
              split_ifs at hl with hlen
              have hl := Except.ok.inj hl
              subst hl
              simp only [arrTransformed, seriesOf, List.length_map]
              rw [if_pos (by simpa using hlen), List.zip_map_right]
              rfl
          cases h6 : seriesOf (sx.map Prod.fst) a with
          | error e => rw [h6] at h; cases h
          | ok l =>
            rw [h6] at h
            rw [hs l h6] at h'
            dsimp only at h h'
            have h := Except.ok.inj h
            have h' := Except.ok.inj h'
            subst h
            subst h'
            unfold fcastClean
            rw [List.map_map, List.map_map, List.filter_map, List.map_map]
            have : ((fun p : Int × Option K => p.2.isSome) ∘ fun p : Int × Option K => (p.1, p.2.map f)) = fun p => p.2.isSome := by
              funext p
              simp only [Function.comp, Option.isSome_map]
            rw [this]
            rfl

/-- The forecast rows of one model in a result that contains such rows. -/
theorem model_rows [FloorRing K] [IsStrictOrderedRing K] (w : World K) (args : RunArgs K) (source : String) (df : Frame K) (res : RunResult K)
    (h : runSingle w args source df = .ok res) (m : ForecastModel K)
    (hcand : ∀ df' cand, candidates w.ch args.models df' (runFreq df) = .ok cand → ∀ m' ∈ cand.2, m'.name = m.name → m' = m)
    (hnames : ∀ df' cand, candidates w.ch args.models df' (runFreq df) = .ok cand → (cand.2.map ForecastModel.name).Nodup)
    (hb : ∃ r ∈ res.data, r.isActuals = false ∧ r.model = m.name) :
    ∃ df2 f act mode rows, applyOutliers args.findOutliers (filterStart args.start df) = .ok df2 ∧
      actualsInterpolated w.srt df (usedRows (defaultWeights df2).1) = .ok act ∧ f.isFit = true ∧
      forecastRows (mkSetup w args source df (defaultWeights df2).1 (defaultWeights df2).2 mode act) m f = .ok rows ∧
      (res.data.filter fun r => !r.isActuals && decide (r.model = m.name)).map (fun r => (r.date, r.y)) = rows.map fun r => (r.date, r.y) := by
  obtain ⟨d, hd, hdata, -, -⟩ := runSingle_inv w args source df res h
  obtain ⟨st⟩ := runFits_stages w args source df d hd
  have hd1 : d.1 = _ := congrArg Prod.fst st.hd
  obtain ⟨r, hr, ha, hm⟩ := hb
  have hr1 : r ∈ d.1 ∧ (args.includeAll = true ∨ r.isBest = true) := by
    rw [hdata] at hr
    unfold selectFits at hr
    split_ifs at hr with hi
    · exact ⟨hr, .inl hi⟩
    · obtain ⟨h1, h2⟩ := List.mem_filter.1 hr
      rw [ha, Bool.or_false] at h2
      exact ⟨h1, .inr h2⟩
  obtain ⟨hr1, hor⟩ := hr1
  rw [hd1] at hr1
  obtain ⟨q, hq, rfl⟩ := List.mem_map.1 hr1
  have hq : q ∈ st.fits.2 := by
    rcases List.mem_append.1 hq with hq | hq
    · unfold actualsClean at hq
      obtain ⟨q', -, rfl⟩ := List.mem_map.1 hq
      cases ha
    · exact hq
  have hm : q.model = m.name := hm
  obtain ⟨k, m', f0, rows0, e1, -, e3, e4⟩ := (fitLoop_spec _ _ _ _ _ st.hFits).2.2 q hq
  have hmm : m' = m := hcand _ _ st.hCand m' (List.mem_of_getElem? e1) (by
    rw [← (forecastRows_mem _ _ _ _ e3 q e4).2.2.2.1]
    exact hm)
  subst hmm
  obtain ⟨f, rows, g1, g2, g3⟩ := fitLoop_only _ _ _ _ _ st.hFits (hnames _ _ st.hCand) k m' e1
  have hqr : q ∈ rows := by
    rw [← g3]
    exact List.mem_filter.2 ⟨hq, decide_eq_true hm⟩
  obtain ⟨-, -, -, -, hlong, hfit, -⟩ := forecastRows_mem _ _ _ _ g2 q hqr
  refine ⟨st.df2, f, st.actuals, st.cand.1, rows, st.hOut, st.hAct, hfit, g2, ?_⟩
  have hall : (d.1.filter fun r => !r.isActuals && decide (r.model = m'.name)) = rows.map (flagData (bestKey w.srt st.fits.1)) := by
    rw [hd1, List.map_append, List.filter_append]
    have e0 : ((actualsClean (defaultWeights st.df2).1 source ⟨(defaultWeights st.df2).2, runFreq df, st.range⟩).map (flagData (bestKey w.srt st.fits.1))).filter
        (fun r => !r.isActuals && decide (r.model = m'.name)) = [] := by
      rw [List.filter_eq_nil_iff]
      intro r hr
      unfold actualsClean at hr
      rw [List.map_map] at hr
      obtain ⟨r', -, rfl⟩ := List.mem_map.1 hr
      simp [flagData]
    rw [e0, List.nil_append, List.filter_map, ← g3]
    congr 1
    apply List.filter_congr
    intro r hr
    obtain ⟨k2, m2, f2, rows2, -, -, t3, t4⟩ := (fitLoop_spec _ _ _ _ _ st.hFits).2.2 r hr
    have hra := (forecastRows_mem _ _ _ _ t3 r t4).1
    simp only [Function.comp, flagData, hra, Bool.not_false, Bool.true_and]
  have hsel : (res.data.filter fun r => !r.isActuals && decide (r.model = m'.name)) = d.1.filter fun r => !r.isActuals && decide (r.model = m'.name) := by
    rw [hdata]
    unfold selectFits
    split_ifs with hi
    · rfl
    · have hbest : bestKey w.srt st.fits.1 = some (q.long, q.model) := by
        rcases hor with h | h
        · exact absurd h hi
        · exact of_decide_eq_true h
      rw [List.filter_filter]
      apply List.filter_congr
      intro r hr
      by_cases hc : (!r.isActuals && decide (r.model = m'.name)) = true
      · have hr2 : r ∈ rows.map (flagData (bestKey w.srt st.fits.1)) := by
          rw [← hall]
          exact List.mem_filter.2 ⟨hr, hc⟩
        obtain ⟨r0, hr0, rfl⟩ := List.mem_map.1 hr2
        have : (flagData (bestKey w.srt st.fits.1) r0).isBest = true := by
          simp only [flagData, hbest]
          rw [(forecastRows_mem _ _ _ _ g2 r0 hr0).2.2.2.2.1, (forecastRows_mem _ _ _ _ g2 r0 hr0).2.2.2.1, hlong, hm]
          exact decide_eq_true rfl
        rw [this]
        simp
      · have hc : (!r.isActuals && decide (r.model = m'.name)) = false := by simpa using hc
        rw [hc]
        rfl
  rw [hsel, hall, List.map_map]
  rfl

/-- Forecasts of a model that only copies, before and after a transformation. -/
theorem copied_rows [FloorRing K] [IsStrictOrderedRing K] (w w' : World K) (args args' : RunArgs K) (source : String) (df : Frame K) (f : K → K) (res res' : RunResult K)
    (h : runSingle w args source df = .ok res) (h' : runSingle w' args' source (transformed f df) = .ok res') (hsrt : w'.srt = w.srt)
    (hargs : args'.start = args.start ∧ args'.findOutliers = args.findOutliers ∧ args'.years = args.years)
    (hout : ∀ df2, applyOutliers args.findOutliers (filterStart args.start df) = .ok df2 →
      applyOutliers args.findOutliers (transformed f (filterStart args.start df)) = .ok (transformed f df2))
    (m : ForecastModel K) (hm : OnlyCopies m)
    (hcand : ∀ df' cand, candidates w.ch args.models df' (runFreq df) = .ok cand → ∀ m' ∈ cand.2, m'.name = m.name → m' = m)
    (hcand' : ∀ df' cand, candidates w'.ch args'.models df' (runFreq df) = .ok cand → ∀ m' ∈ cand.2, m'.name = m.name → m' = m)
    (hnames : ∀ df' cand, candidates w.ch args.models df' (runFreq df) = .ok cand → (cand.2.map ForecastModel.name).Nodup)
    (hnames' : ∀ df' cand, candidates w'.ch args'.models df' (runFreq df) = .ok cand → (cand.2.map ForecastModel.name).Nodup)
    (hb : ∃ r ∈ res.data, r.isActuals = false ∧ r.model = m.name) (hb' : ∃ r ∈ res'.data, r.isActuals = false ∧ r.model = m.name) :
    (res'.data.filter fun r => !r.isActuals && decide (r.model = m.name)).map (fun r => (r.date, r.y)) =
      (res.data.filter fun r => !r.isActuals && decide (r.model = m.name)).map fun r => (r.date, r.y.map f) := by
  obtain ⟨df2, g, act, mode, rows, e1, e2, e3, e4, e5⟩ := model_rows w args source df res h m hcand hnames hb
  obtain ⟨df2', g', act', mode', rows', e1', e2', e3', e4', e5'⟩ := model_rows w' args' source _ res' h' m (by rw [runFreq_transformed]; exact hcand')
    (by rw [runFreq_transformed]; exact hnames') hb'
  obtain ⟨a1, a2, a3⟩ := hargs
  rw [a1, a2, filterStart_transformed, hout df2 e1] at e1'
  have := (Except.ok.inj e1').symm
  subst this
  rw [defaultWeights_transformed, usedRows_transformed, hsrt, actuals_transformed, e2] at e2'
  have := (Except.ok.inj e2').symm
  subst this
  have hax : ∀ g : Frame K, axisOf (transformed f g) = axisOf g := by
    intro g
    unfold axisOf transformed
    simp only [List.map_map]
    rfl
  have hr := forecastRows_transformed f _ _ m hm g g' rows rows' (by simp only [mkSetup]; rw [defaultWeights_transformed, usedRows_transformed]) (by simp only [mkSetup])
    (by simp only [mkSetup]; rw [defaultWeights_transformed, hax]) (by simp only [mkSetup]; rw [runFreq_transformed]) (by simp only [mkSetup, a3]) e3 e3' e4 e4'
  rw [e5', hr]
  have := congrArg (List.map fun p : Int × Option K => (p.1, p.2.map f)) e5
  rw [List.map_map, List.map_map] at this
  exact this.symm

end Anticipy
