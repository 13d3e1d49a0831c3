import Verif.Spec.Pattern
import Verif.Props.EachSeries
import Verif.Props.ReportedValues
import Verif.Props.DetectFreq
import Verif.Props.Extrapolate
import Verif.Props.PointByPoint
import Verif.Props.RunExamples
import Verif.Props.Unique

/-
C101: predictions are made for the dates on which the series would have further samples.
-/
namespace Anticipy
open Spec

section
variable {K : Type} [Field K] [LinearOrder K]

/-! ### The axis of the predictions -/

omit [Field K] [LinearOrder K] in
theorem seriesOf_fst (index : List Int) (a : Arr K) (l : List (Int × Option K)) (h : seriesOf index a = .ok l) : l.map Prod.fst = index := by
  cases a with
  | scalar v =>
    cases h
    simp [Function.comp_def]
  | vec v =>
    unfold seriesOf at h
    dsimp only at h
    split_ifs at h with hl
    cases h
    exact List.map_fst_zip (by omega)

omit [Field K] [LinearOrder K] in
theorem seriesOf_some (index : List Int) (a : Arr K) (l : List (Int × Option K)) (h : seriesOf index a = .ok l) (hn : NoNulls a) : ∀ e ∈ l, e.2 ≠ none := by
  intro e he
  cases a with
  | scalar v =>
    cases h
    obtain ⟨t, -, rfl⟩ := List.mem_map.1 he
    exact hn
  | vec v =>
    unfold seriesOf at h
    dsimp only at h
    split_ifs at h with hl
    cases h
    exact hn _ (List.of_mem_zip he).2

omit [LinearOrder K] in
/-- The forecast rows of a fitted model of a dated series. -/
theorem forecastRows_axis (s : FitSetup K) (m : ForecastModel K) (f : FitResult K) (rows : List (DRow K)) (h : forecastRows s m f = .ok rows) (hf : f.isFit = true)
    (hd : s.used.hasDate = true) :
    ∃ start x0 sx l, listMin (axisOf s.used) = some start ∧ listMin (s.used.rows.map Row.x) = some x0 ∧
      sxExtrapolateDate start s.stop s.freq s.years x0 = .ok sx ∧ l.map Prod.fst = sx.map Prod.fst ∧
      rows = fcastClean l s.source ⟨f.weights, s.freq, f.range⟩ m.name ∧ (NeverNull m → ∀ e ∈ l, e.2 ≠ none) := by
  unfold forecastRows at h
  rw [if_pos hf] at h
  cases h1 : listMin (axisOf s.used) with
  | none => rw [h1] at h; cases h
  | some a =>
    cases h2 : listMin (s.used.rows.map Row.x) with
    | none => rw [h1, h2] at h; cases h
    | some x0 =>
      rw [h1, h2] at h
      simp only [bind, Except.bind] at h
      cases h3 : extrapolate m f.params s.used.hasDate a s.stop s.freq s.years x0 s.actuals with
      | error e => rw [h3] at h; cases h
      | ok l =>
        rw [h3] at h
        cases h
        unfold extrapolate at h3
        rw [hd] at h3
        simp only [if_true, bind, Except.bind] at h3
        cases h4 : sxExtrapolateDate a s.stop s.freq s.years x0 with
        | error e => rw [h4] at h3; cases h3
        | ok sx =>
          rw [h4] at h3
          dsimp only at h3
          cases h5 : m.fModel { ax := scaleX m (sx.map Prod.snd), adate := some (sx.map Prod.fst), actuals := some s.actuals } (some f.params) false with
          | error e => rw [h5] at h3; cases h3
          | ok arr =>
            rw [h5] at h3
            dsimp only at h3
            exact ⟨a, x0, sx, l, rfl, rfl, h4, seriesOf_fst _ _ _ h3, rfl, fun hn => seriesOf_some _ _ _ h3 (hn _ _ _ _ _ _ h5)⟩

/-- All predictions of a run on a dated series are for the dates of one extrapolated axis. -/
theorem pattern_run [FloorRing K] [IsStrictOrderedRing K] (w : World K) (args : RunArgs K) (source : String) (df : Frame K) (res : RunResult K)
    (h : runSingle w args source df = .ok res) (hd : df.hasDate = true)
    (hsome : (∃ r ∈ res.data, r.isActuals = false) ∨ ∃ b ∈ res.metadata, b.isFit = true) :
    ∃ start stop x0 sx, (∃ q ∈ kept args.start df, q.date = start) ∧
      (args.findOutliers = false → ∀ q ∈ kept args.start df, ∀ v, givenWeight df q = some v → 0 < v → start ≤ q.date) ∧
      (∃ q ∈ kept args.start df, q.date = stop) ∧ (∀ q ∈ kept args.start df, q.date ≤ stop) ∧
      sxExtrapolateDate start stop (runFreq df) args.years x0 = .ok sx ∧ PredictsOnly res (sx.map Prod.fst) ∧
      ((∀ df' cand, candidates w.ch args.models df' (runFreq df) = .ok cand → ∀ m ∈ cand.2, Unpinned m ∧ NeverNull m) → PredictsAll res (sx.map Prod.fst)) := by
  obtain ⟨d, hdd, hdata, hmeta, -⟩ := runSingle_inv w args source df res h
  obtain ⟨st⟩ := runFits_stages w args source df d hdd
  have hd1 : d.1 = _ := congrArg Prod.fst st.hd
  have hd2 : d.2 = _ := congrArg Prod.snd st.hd
  obtain ⟨hl, ha, hrev⟩ := fitLoop_spec _ _ _ _ _ st.hFits
  obtain ⟨u1, u2, u3, u4, u5⟩ := used_rows args.findOutliers args.start df st.df2 st.hOut
  rw [hd] at u1
  have hdw : (defaultWeights st.df2).1.hasDate = true := u1
  have hout : ∀ r ∈ res.data, r ∈ d.1 := by
    intro r hr
    rw [hdata] at hr
    unfold selectFits at hr
    split_ifs at hr with c
    · exact hr
    · exact (List.mem_filter.1 hr).1
  have hmout : ∀ b ∈ res.metadata, b ∈ d.2 := by
    intro r hr
    rw [hmeta] at hr
    unfold selectFits at hr
    split_ifs at hr with c
    · exact hr
    · exact (List.mem_filter.1 hr).1
  -- where predictions come from
  have hpred : ∀ r ∈ res.data, r.isActuals = false → ∃ k m f rows, st.cand.2[k]? = some m ∧
      fitModel (w.env source (0 + k)) m (usedRows (defaultWeights st.df2).1) (some st.actuals) args.useCache = .ok f ∧
      forecastRows (mkSetup w args source df (defaultWeights st.df2).1 (defaultWeights st.df2).2 st.cand.1 st.actuals) m f = .ok rows ∧
      ∃ r0 ∈ rows, r0.date = r.date := by
    intro r hr hact
    have hr := hout r hr
    rw [hd1] at hr
    obtain ⟨r0, hr0, rfl⟩ := List.mem_map.1 hr
    rcases List.mem_append.1 hr0 with hr0 | hr0
    · exfalso
      unfold actualsClean at hr0
      obtain ⟨q, -, rfl⟩ := List.mem_map.1 hr0
      cases hact
    · obtain ⟨k, m, f, rows, c1, c2, c3, c4⟩ := hrev r0 hr0
      exact ⟨k, m, f, rows, c1, c2, c3, r0, c4, rfl⟩
  -- where fits come from
  have hfits : ∀ b ∈ res.metadata, b.isFit = true → ∃ k m f rows, st.cand.2[k]? = some m ∧
      fitModel (w.env source (0 + k)) m (usedRows (defaultWeights st.df2).1) (some st.actuals) args.useCache = .ok f ∧
      forecastRows (mkSetup w args source df (defaultWeights st.df2).1 (defaultWeights st.df2).2 st.cand.1 st.actuals) m f = .ok rows ∧ f.isFit = true ∧
      (∀ r ∈ rows, r ∈ st.fits.2) ∧
      b = flagMeta (bestKey w.srt st.fits.1) (metaRow (mkSetup w args source df (defaultWeights st.df2).1 (defaultWeights st.df2).2 st.cand.1 st.actuals) m f) := by
    intro b hb hfit
    have hb := hmout b hb
    rw [hd2] at hb
    obtain ⟨b0, hb0, rfl⟩ := List.mem_map.1 hb
    obtain ⟨k, hk⟩ := List.getElem?_of_mem hb0
    have hlt : k < st.cand.2.length := by
      rw [← hl]
      exact (List.getElem?_eq_some_iff.1 hk).1
    obtain ⟨f, rows, e1, e2, e3, e4⟩ := ha k _ (List.getElem?_eq_getElem hlt)
    rw [hk] at e3
    cases e3
    exact ⟨k, _, f, rows, List.getElem?_eq_getElem hlt, e1, e2, hfit, e4, rfl⟩
  -- one model that was fitted
  obtain ⟨m0, f0, rows0, g1, g2⟩ : ∃ m f rows,
      forecastRows (mkSetup w args source df (defaultWeights st.df2).1 (defaultWeights st.df2).2 st.cand.1 st.actuals) m f = .ok rows ∧ f.isFit = true := by
    rcases hsome with ⟨r, hr, hact⟩ | ⟨b, hb, hfit⟩
    · obtain ⟨k, m, f, rows, -, -, c3, r0, hr0, -⟩ := hpred r hr hact
      exact ⟨m, f, rows, c3, (forecastRows_mem _ _ _ _ c3 r0 hr0).2.2.2.2.2.1⟩
    · obtain ⟨k, m, f, rows, -, -, c3, c4, -, -⟩ := hfits b hb hfit
      exact ⟨m, f, rows, c3, c4⟩
  obtain ⟨start, x0, sx, -, h1, h2, h3, -⟩ := forecastRows_axis _ m0 f0 rows0 g1 g2 u1
  have hax : ∀ g : Frame K, g.hasDate = true → axisOf g = g.rows.map Row.date := fun g hg => if_pos hg
  have h1' := h1
  have h1' : listMin (axisOf (usedRows (defaultWeights st.df2).1)) = some start := h1'
  rw [hax _ u1, listMin_some] at h1'
  obtain ⟨q1, hq1, hq1'⟩ := List.mem_map.1 h1'.1
  obtain ⟨k1, hk1, a1, -, -, -⟩ := u5 q1 hq1
  obtain ⟨stop, hstop⟩ : ∃ stop, listMax (axisOf (defaultWeights st.df2).1) = some stop := by
    cases hm : listMax (axisOf (defaultWeights st.df2).1) with
    | some v => exact ⟨v, rfl⟩
    | none =>
      rw [listMax_none, hax _ hdw, u3, List.map_eq_nil_iff] at hm
      rw [hm] at hk1
      cases hk1
  have h3 : sxExtrapolateDate start ((listMax (axisOf (defaultWeights st.df2).1)).getD 0) (runFreq df) args.years x0 = .ok sx := h3
  rw [hstop, Option.getD_some] at h3
  have hs2 := hstop
  rw [hax _ hdw, u3, listMax_some] at hs2
  obtain ⟨q3, hq3, hq3'⟩ := List.mem_map.1 hs2.1
  -- the axis is the same for all models
  have hsame : ∀ m f rows, forecastRows (mkSetup w args source df (defaultWeights st.df2).1 (defaultWeights st.df2).2 st.cand.1 st.actuals) m f = .ok rows →
      f.isFit = true → ∃ l, l.map Prod.fst = sx.map Prod.fst ∧ rows = fcastClean l source ⟨f.weights, runFreq df, f.range⟩ m.name ∧
      (NeverNull m → ∀ e ∈ l, e.2 ≠ none) := by
    intro m f rows e hf
    obtain ⟨start', x0', sx', l, i1, i2, i3, i4, i5, i6⟩ := forecastRows_axis _ m f rows e hf u1
    rw [h1] at i1
    cases i1
    rw [h2] at i2
    cases i2
    have i3 : sxExtrapolateDate start ((listMax (axisOf (defaultWeights st.df2).1)).getD 0) (runFreq df) args.years x0 = .ok sx' := i3
    rw [hstop, Option.getD_some, h3] at i3
    cases i3
    exact ⟨l, i4, i5, i6⟩
  refine ⟨start, stop, x0, sx, ⟨k1, hk1, by rw [← hq1', a1]⟩, ?_, ⟨q3, hq3, hq3'⟩, fun q hq => hs2.2 _ (List.mem_map_of_mem hq), h3, ?_, ?_⟩
  · intro hno q hq v hv hp
    have hO := st.hOut
    rw [hno] at hO
    obtain ⟨r, hr, r1, -⟩ := used_all args.start df st.df2 hO q hq v hv hp
    rw [← r1]
    exact h1'.2 _ (List.mem_map_of_mem (f := Row.date) hr)
  · intro r hr hact
    obtain ⟨k, m, f, rows, -, -, c3, r0, hr0, hdate⟩ := hpred r hr hact
    obtain ⟨l, i1, i2, -⟩ := hsame m f rows c3 (forecastRows_mem _ _ _ _ c3 r0 hr0).2.2.2.2.2.1
    rw [i2] at hr0
    unfold fcastClean at hr0
    obtain ⟨p, hp, rfl⟩ := List.mem_map.1 hr0
    rw [← hdate, ← i1]
    exact List.mem_map_of_mem (f := Prod.fst) (List.mem_filter.1 hp).1
  · intro hall b hb hfit t ht
    obtain ⟨k, m, f, rows, c1, c2, c3, c4, c5, hbe⟩ := hfits b hb hfit
    obtain ⟨hum, hnn⟩ := hall _ _ st.hCand m (List.mem_of_getElem? c1)
    have hname := fit_unpinned _ _ _ _ _ _ hum c2
    obtain ⟨l, i1, i2, i3⟩ := hsame m f rows c3 c4
    rw [← i1] at ht
    obtain ⟨p, hp, rfl⟩ := List.mem_map.1 ht
    have hp2 := i3 hnn p hp
    have hrow : (⟨p.1, source, ⟨f.weights, runFreq df, f.range⟩, m.name, false, p.2, some 1, false⟩ : DRow K) ∈ rows := by
      rw [i2]
      unfold fcastClean
      exact List.mem_map.2 ⟨p, List.mem_filter.2 ⟨hp, Option.isSome_iff_ne_none.2 hp2⟩, rfl⟩
    have hbest : (flagData (bestKey w.srt st.fits.1) (⟨p.1, source, ⟨f.weights, runFreq df, f.range⟩, m.name, false, p.2, some 1, false⟩ : DRow K)).isBest = b.isBest := by
      rw [hbe]
      show decide (bestKey w.srt st.fits.1 = some (_, m.name)) = decide (bestKey w.srt st.fits.1 = some (_, f.modelName))
      rw [hname]
      rfl
    have hb' : args.includeAll = true ∨ b.isBest = true := by
      rw [hmeta] at hb
      unfold selectFits at hb
      split_ifs at hb with c
      · exact .inl c
      · exact .inr (List.mem_filter.1 hb).2
    refine ⟨flagData (bestKey w.srt st.fits.1) (⟨p.1, source, ⟨f.weights, runFreq df, f.range⟩, m.name, false, p.2, some 1, false⟩ : DRow K), ?_, rfl, ?_, rfl, hp2⟩
    · have hin : flagData (bestKey w.srt st.fits.1) (⟨p.1, source, ⟨f.weights, runFreq df, f.range⟩, m.name, false, p.2, some 1, false⟩ : DRow K) ∈ d.1 := by
        rw [hd1]
        exact List.mem_map.2 ⟨_, List.mem_append_right _ (c5 _ hrow), rfl⟩
      rw [hdata]
      unfold selectFits
      split_ifs with c
      · exact hin
      · refine List.mem_filter.2 ⟨hin, ?_⟩
        rw [hbest, hb'.resolve_left c]
        rfl
    · rw [hbe]
      exact hname.symm

/-! ### Models without missing values -/

omit [Field K] [LinearOrder K] in
theorem vecOf_noNulls (l : List K) : NoNulls (vecOf l) := by
  intro v hv
  obtain ⟨x, -, rfl⟩ := List.mem_map.1 hv
  simp

omit [Field K] [LinearOrder K] in
theorem bin_noNulls (op : K → K → K) (a b r : Arr K) (h : Arr.bin op a b = .ok r) (ha : NoNulls a) (hb : NoNulls b) : NoNulls r := by
  cases a with
  | scalar x =>
    cases b with
    | scalar y => cases h; exact lift2_some op x y ha hb
    | vec l =>
      cases h
      intro v hv
      obtain ⟨y, hy, rfl⟩ := List.mem_map.1 hv
      exact lift2_some op x y ha (hb y hy)
  | vec l =>
    cases b with
    | scalar y =>
      cases h
      intro v hv
      obtain ⟨x, hx, rfl⟩ := List.mem_map.1 hv
      exact lift2_some op x y (ha x hx) hb
    | vec l' =>
      unfold Arr.bin at h
      dsimp only at h
      split_ifs at h
      · cases h
        intro v hv
        obtain ⟨i, hi, rfl⟩ := List.mem_iff_getElem.1 hv
        rw [List.getElem_zipWith]
        exact lift2_some op _ _ (ha _ (List.getElem_mem _)) (hb _ (List.getElem_mem _))
      · split at h
        · cases h
          intro v hv
          obtain ⟨y, hy, rfl⟩ := List.mem_map.1 hv
          exact lift2_some op _ y (ha _ (List.mem_singleton.2 rfl)) (hb y hy)
        · cases h
          intro v hv
          obtain ⟨x, hx, rfl⟩ := List.mem_map.1 hv
          exact lift2_some op x _ (ha x hx) (hb _ (List.mem_singleton.2 rfl))
        · cases h

omit [LinearOrder K] in
theorem neverNull_null : NeverNull (modelNull : ForecastModel K) := by
  intro ax ds act p mult a h
  simp only [modelNull, mkModel] at h
  cases h
  simp [NoNulls]

omit [LinearOrder K] in
theorem neverNull_compose (mult : Bool) (m1 m2 : ForecastModel K) (h1 : NeverNull m1) (h2 : NeverNull m2) : NeverNull (compose mult m1 m2) := by
  unfold compose
  by_cases a : m1.name = "null"
  · rw [if_pos a]; exact h2
  rw [if_neg a]
  by_cases b : m2.name = "null"
  · rw [if_pos b]; exact h1
  rw [if_neg b]
  intro ax ds act p md r hr
  have hr : (do
      let a ← m1.fModel { ax := ax, adate := ds, actuals := act } (some (p.take m1.nParams)) mult
      let b ← m2.fModel { ax := ax, adate := ds, actuals := act } (some (p.drop m1.nParams)) mult
      Arr.bin (if mult then (· * ·) else (· + ·)) a b) = .ok r := by
    cases mult <;> exact hr
  cases e1 : m1.fModel { ax := ax, adate := ds, actuals := act } (some (p.take m1.nParams)) mult with
  | error e => rw [e1] at hr; cases hr
  | ok a =>
    cases e2 : m2.fModel { ax := ax, adate := ds, actuals := act } (some (p.drop m1.nParams)) mult with
    | error e => rw [e1, e2] at hr; cases hr
    | ok b =>
      rw [e1, e2] at hr
      exact bin_noNulls _ a b r hr (h1 _ _ _ _ _ _ e1) (h2 _ _ _ _ _ _ e2)

/-- Sums and products of models without missing values, and models of that kind in the library. -/
theorem neverNull_built (A : ForecastModel K → Prop) (hA : ∀ m, A m → NeverNull m) (m : ForecastModel K) (h : BuiltFrom A m) : NeverNull m := by
  induction h with
  | part a ha => exact hA a ha
  | null => exact neverNull_null
  | plus a b _ _ i1 i2 => exact neverNull_compose false a b i1 i2
  | times a b _ _ i1 i2 => exact neverNull_compose true a b i1 i2

omit [Field K] [LinearOrder K] in
theorem gather_noNulls (l : List K) (is : List Int) (r : List (Option K)) (h : gather l is = .ok r) : ∀ v ∈ r, v ≠ none := by
  induction is generalizing r with
  | nil => cases h; simp
  | cons i is ih =>
    simp only [gather, bind, Except.bind] at h
    cases e : pyIndex l i with
    | error x => rw [e] at h; cases h
    | ok v =>
      rw [e] at h
      dsimp only at h
      cases e2 : gather l is with
      | error x => rw [e2] at h; cases h
      | ok r' =>
        rw [e2] at h
        cases h
        intro u hu
        rcases List.mem_cons.1 hu with rfl | hu
        · simp
        · exact ih r' e2 u hu

omit [LinearOrder K] in
theorem neverNull_indexed (m : ForecastModel K) (key : String) (f : CacheFn K) (hm : m.fModel = fModelIndexed key f) : NeverNull m := by
  intro ax ds act p mult a h
  rw [hm] at h
  simp only [fModelIndexed, bind, Except.bind] at h
  cases e : f ax ds with
  | error x => rw [e] at h; cases h
  | ok c =>
    rw [e] at h
    cases c with
    | ints l =>
      dsimp only at h
      cases e2 : gather ((if mult then 1 else 0) :: p) l with
      | error x => rw [e2] at h; cases h
      | ok r =>
        rw [e2] at h
        cases h
        exact gather_noNulls _ _ _ e2
    | _ => cases h

theorem neverNull_library : NeverNull (modelConstant : ForecastModel K) ∧ NeverNull (modelLinear : ForecastModel K) ∧ NeverNull (modelLinearNondec : ForecastModel K) ∧
    NeverNull (modelRamp : ForecastModel K) ∧ NeverNull (modelStep : ForecastModel K) ∧ NeverNull (modelSeasonWday : ForecastModel K) ∧
    NeverNull (modelSeasonMonth : ForecastModel K) := by
  refine ⟨?_, ?_, ?_, ?_, ?_, neverNull_indexed _ "a_weekday" cacheWeekday rfl, neverNull_indexed _ "a_month" cacheMonth rfl⟩
  · intro ax ds act p mult a h
    have h : fModelConstant { ax := ax, adate := ds, actuals := act } (some p) mult = .ok a := h
    rcases unpack1_cases p with ⟨v, hv⟩ | hv <;> simp only [fModelConstant, hv, bind, Except.bind] at h <;> cases h
    exact vecOf_noNulls _
  all_goals
    intro ax ds act p mult a h
  · have h : fModelLinear { ax := ax, adate := ds, actuals := act } (some p) mult = .ok a := h
    rcases unpack2_cases p with ⟨v, hv⟩ | hv <;> simp only [fModelLinear, hv, bind, Except.bind] at h <;> cases h
    exact vecOf_noNulls _
  · have h : fModelLinear { ax := ax, adate := ds, actuals := act } (some p) mult = .ok a := h
    rcases unpack2_cases p with ⟨v, hv⟩ | hv <;> simp only [fModelLinear, hv, bind, Except.bind] at h <;> cases h
    exact vecOf_noNulls _
  · have h : fRamp { ax := ax, adate := ds, actuals := act } (some p) mult = .ok a := h
    rcases unpack2_cases p with ⟨v, hv⟩ | hv <;> simp only [fRamp, hv, bind, Except.bind] at h <;> cases h
    exact vecOf_noNulls _
  · have h : fStep { ax := ax, adate := ds, actuals := act } (some p) mult = .ok a := h
    rcases unpack2_cases p with ⟨v, hv⟩ | hv <;> simp only [fStep, hv, bind, Except.bind] at h <;> cases h
    exact vecOf_noNulls _

/-! ### C101 -/

omit [LinearOrder K] in
/-- **C101** Take a table with dates, and one of its series, whose dates are on the grid of a frequency `f` (hours, days, a weekday, first days of months,
first or last days of years) and contain two neighbours of that grid. If something was predicted for it, all predictions are for dates of that grid, starting
with the first sample used; the dates are the grid dates up to the last sample, without holes, and `⌊years * samples per year⌋` grid dates after it. Each model
that was fitted has a prediction for all of these dates if the candidates have no missing values.
Missing from the full property: month-end dates (C21), weekly dates with a time of day and a horizon of partial days, horizons that are not whole
months or years; and patterns other than these grids (counterexamples below). -/
theorem C101_dates_partial [LinearOrder K] [FloorRing K] [IsStrictOrderedRing K] (civil : Int → Int × Int × Int) (hc : IsCalendar civil) (wd : Int → Int) (hw : IsWeek wd)
    (f : Freq) (hf : ValidFreq f) (hM : f ≠ .M) (hQ : f ≠ .Q)
    (w : World K) (args : RunArgs K) (id : String) (t : STable K) (res : RunResult K) (h : runForecast w args id t = .ok (some res)) (s : String)
    (hm : IsSeries t id s) (hd : t.hasDate = true) (o : Timestamp) (hgrid : ∀ r ∈ rowsOf t s, OnGrid civil wd f o r.date)
    (hnb : ∃ a ∈ rowsOf t s, ∃ b ∈ rowsOf t s, Neighbours civil wd f a.date b.date) (hy : 0 ≤ args.years)
    (hweek : ∀ v, f = .W v → o % dayNs = 0 ∨ (364 * args.years).den = 1)
    (hint : f = .MS ∨ f = .YS ∨ f = .Y → (args.years * samplesPerYear f).den = 1)
    (hsome : (∃ r ∈ (partOf t s res).data, r.isActuals = false) ∨ ∃ b ∈ (partOf t s res).metadata, b.isFit = true) :
    ∃ start stop dates, CoversHorizon civil wd f start stop dates ⌊args.years * samplesPerYear f⌋ ∧
      (∃ r ∈ rowsOf t s, r.date = start) ∧ (∀ d, args.start = some d → d ≤ start) ∧
      (args.findOutliers = false → ∀ r ∈ rowsOf t s, (∀ d, args.start = some d → d ≤ r.date) → (t.hasWeight = true → ∃ v, r.weight = some v ∧ 0 < v) → start ≤ r.date) ∧
      (∃ r ∈ rowsOf t s, r.date = stop) ∧ (∀ r ∈ rowsOf t s, r.date ≤ stop) ∧
      (∀ d ∈ dates, OnGrid civil wd f o d) ∧ PredictsOnly (partOf t s res) dates ∧
      ((∀ df' cand, candidates w.ch args.models df' (some f) = .ok cand → ∀ m ∈ cand.2, Unpinned m ∧ NeverNull m) → PredictsAll (partOf t s res) dates) := by
  obtain ⟨df, e1, e2, e3, -, -, hr⟩ := each_series w args id t res h s hm
  rw [hd] at e1
  have hdates : (df.rows.map Row.date).Perm ((rowsOf t s).map SRow.date) := by
    have := e3.map Prod.fst
    simpa [Function.comp_def] using this
  have hk := kept_rows args.start df e1 t s e3
  have hkd : ((kept args.start df).map Row.date).Perm (((rowsOf t s).filter fun r => decide (∀ d, args.start = some d → d ≤ r.date)).map SRow.date) := by
    have := hk.map Prod.fst
    simpa [Function.comp_def] using this
  have hfreq : runFreq df = some f := by
    unfold runFreq
    rw [e1, if_pos rfl]
    refine C19_detect_freq civil hc wd hw f hf _ o ?_ ?_
    · intro d hd'
      obtain ⟨r, hr', rfl⟩ := List.mem_map.1 (hdates.mem_iff.1 hd')
      exact hgrid r hr'
    · obtain ⟨a, ha, b, hb, hab⟩ := hnb
      exact ⟨a.date, hdates.mem_iff.2 (List.mem_map_of_mem ha), b.date, hdates.mem_iff.2 (List.mem_map_of_mem hb), hab⟩
  obtain ⟨start, stop, x0, sx, ⟨q1, hq1, p1⟩, p2, ⟨q3, hq3, p3⟩, p4, p5, p6, p7⟩ := pattern_run w args s df _ hr e1 hsome
  have hback : ∀ q ∈ kept args.start df, ∃ r ∈ rowsOf t s, r.date = q.date ∧ ∀ d, args.start = some d → d ≤ r.date := by
    intro q hq
    obtain ⟨r, hr', e⟩ := List.mem_map.1 (hkd.mem_iff.1 (List.mem_map_of_mem hq))
    exact ⟨r, (List.mem_filter.1 hr').1, e, of_decide_eq_true (List.mem_filter.1 hr').2⟩
  obtain ⟨r1, hr1, er1, sr1⟩ := hback q1 hq1
  obtain ⟨r3, hr3, er3, sr3⟩ := hback q3 hq3
  rw [p1] at er1
  rw [p3] at er3
  subst er1 er3
  have hfrom : ∀ r ∈ rowsOf t s, (∀ d, args.start = some d → d ≤ r.date) → ∃ q ∈ kept args.start df, q.date = r.date ∧ q.weight = r.weight := by
    intro r hr' hst
    have := hk.mem_iff.2 (List.mem_map_of_mem (f := fun r : SRow K => (r.date, r.y, r.weight)) (List.mem_filter.2 ⟨hr', decide_eq_true hst⟩))
    obtain ⟨q, hq, e⟩ := List.mem_map.1 this
    simp only [Prod.mk.injEq] at e
    exact ⟨q, hq, e.1, e.2.2⟩
  have hg1 := hgrid r1 hr1
  have hg3 := hgrid r3 hr3
  have htrans : ∀ a b c : Timestamp, OnGrid civil wd f a b → OnGrid civil wd f a c → OnGrid civil wd f b c := by
    intro a b c
    unfold OnGrid dayNs hourNs
    cases f <;> dsimp only
    · intro h1 h2; omega
    · intro h1 h2; omega
    all_goals
      rintro ⟨h1, h2⟩ ⟨h3, h4⟩
      exact ⟨by omega, h4⟩
  have hback2 : ∀ a b c : Timestamp, OnGrid civil wd f a b → OnGrid civil wd f b c → OnGrid civil wd f a c := by
    intro a b c
    unfold OnGrid dayNs hourNs
    cases f <;> dsimp only
    · intro h1 h2; omega
    · intro h1 h2; omega
    all_goals
      rintro ⟨h1, h2⟩ ⟨h3, h4⟩
      exact ⟨by omega, h4⟩
  have hmod : o % dayNs = 0 → f ≠ .H → r1.date % dayNs = 0 := by
    intro ho hH
    have hg := hg1
    unfold OnGrid dayNs at hg
    unfold dayNs at ho ⊢
    cases f <;> simp only at hg <;> first | exact absurd rfl hH | omega
  have hle : r1.date ≤ r3.date := by
    rw [← p1]
    exact p4 q1 hq1
  rw [hfreq] at p5
  obtain ⟨l, i1, i2, -⟩ := C21_extrapolate_partial civil hc wd hw f hf hM hQ r1.date r3.date args.years x0 hy (htrans o _ _ hg1 hg1) (htrans o _ _ hg1 hg3) hle
    (fun v hv => (hweek v hv).imp_left fun ho => hmod ho (by rw [hv]; simp)) hint
  rw [p5] at i1
  cases i1
  refine ⟨r1.date, r3.date, sx.map Prod.fst, i2, ⟨r1, hr1, rfl⟩, sr1, ?_, ⟨r3, hr3, rfl⟩, ?_, fun d hd' => hback2 o _ _ hg1 (i2.2.1 d hd').2, p6, ?_⟩
  · intro hno r hr' hst hwt
    obtain ⟨q, hq, c1, c2⟩ := hfrom r hr' hst
    rw [← c1]
    cases hhw : t.hasWeight with
    | true =>
      obtain ⟨v, hv, hp⟩ := hwt hhw
      exact p2 hno q hq v (by unfold givenWeight; rw [e2, hhw, if_pos rfl, c2, hv]) hp
    | false => exact p2 hno q hq 1 (by unfold givenWeight; rw [e2, hhw]; simp) one_pos
  · intro r hr'
    by_cases hst : ∀ d, args.start = some d → d ≤ r.date
    · obtain ⟨q, hq, c1, -⟩ := hfrom r hr' hst
      rw [← c1]
      exact p4 q hq
    · push Not at hst
      obtain ⟨d, hd', hlt⟩ := hst
      exact le_trans (le_of_lt hlt) (le_trans (sr1 d hd') hle)
  · intro hall
    rw [hfreq] at p7
    exact p7 hall

/-- Dates less than an hour apart have no frequency. -/
theorem detectFreq_close (dates : List Timestamp) (a b : Timestamp) (ha : a ∈ dates) (hb : b ∈ dates) (h1 : a < b) (h2 : b < a + 60 * 60 * 1000000000) :
    detectFreq dates = none := by
  obtain ⟨d, hd, hle, p, -, q, -, hpq, hdq⟩ := minGap dates a b ha hb h1
  unfold detectFreq
  simp only [hd]
  unfold HOUR DAY
  rw [if_neg (by omega), if_neg (by omega), if_neg (by omega), if_neg (by omega), if_neg (by omega), if_neg (by omega)]

/-- **C101 refuted for samples less than an hour apart**, whatever the models, the optimiser and the arguments: if a series has two samples on or after the
starting date that are less than an hour apart, no run on the table has a result. (`get_pi` raises an `AttributeError` at the latest, because the frequency of
the table is `None`.) -/
theorem C101_counterexample_close [FloorRing K] [IsStrictOrderedRing K] (w : World K) (args : RunArgs K) (id : String) (t : STable K) (s : String)
    (hm : IsSeries t id s) (hd : t.hasDate = true) (a b : SRow K) (ha : a ∈ rowsOf t s) (hb : b ∈ rowsOf t s) (h1 : a.date < b.date)
    (h2 : b.date < a.date + 60 * 60 * 1000000000) (hstart : ∀ d, args.start = some d → d ≤ a.date) :
    ¬ ∃ res, runForecast w args id t = .ok (some res) := by
  rintro ⟨res, h⟩
  obtain ⟨df, e1, -, -, -, -, hr⟩ := each_series w args id t res h s hm
  obtain ⟨d, -, -, -, hpi⟩ := runSingle_inv w args s df _ hr
  rw [getPi_one_source _ _ _ s (run_sources w args s df _ hr).1] at hpi
  have hact := (C48_table w args id t res h s hm hd).1
  have hin : ∀ r ∈ rowsOf t s, (∀ d, args.start = some d → d ≤ r.date) → r.date ∈ (selectRows (toFTable df.hasDate (partOf t s res).data)).map FRow.date := by
    intro r hr' hst
    have := hact.mem_iff.2 (List.mem_map_of_mem (f := fun r : SRow K => (r.date, r.y)) (List.mem_filter.2 ⟨hr', decide_eq_true hst⟩))
    obtain ⟨q, hq, e⟩ := List.mem_map.1 this
    simp only [Prod.mk.injEq] at e
    obtain ⟨hq1, hq2⟩ := List.mem_filter.1 hq
    rw [← e.1]
    refine List.mem_map.2 ⟨⟨q.date, some q.source, q.model, q.isActuals, q.isBest, q.y, q.weight⟩, ?_, rfl⟩
    unfold selectRows toFTable
    rw [if_pos rfl]
    exact List.mem_filter.2 ⟨List.mem_map.2 ⟨q, hq1, rfl⟩, by simp [hq2]⟩
  have hnone := detectFreq_close _ a.date b.date (hin a ha hstart) (hin b hb fun d hd' => le_trans (hstart d hd') (le_of_lt h1)) h1 h2
  unfold piSingle cumPeriod at hpi
  have hnum : (toFTable df.hasDate (partOf t s res).data).numDate = false := by
    unfold toFTable
    rw [e1, hd]
    rfl
  rw [hnum] at hpi
  dsimp only at hpi
  rw [hnone] at hpi
  cases hpi

end

/-! ### Concrete cases -/

/-- A series with the values 0, 1, 2, … on the dates given. -/
def plainDates (dates : List Timestamp) : STable ℚ :=
  ⟨true, false, false, false, (List.range dates.length).zipWith (fun i d => ⟨d, none, 0, some (i : ℚ), none⟩) dates⟩

/-- Dates of the predictions of a linear trend. -/
def predictedDates (y : ℚ) (t : STable ℚ) : Option (List Timestamp) :=
  ((runForecast demoWorld { demoArgs [modelLinear] (some []) with years := y } "s" t).toOption.bind id).map fun r =>
    (r.data.filter fun q => !q.isActuals).map DRow.date

/-- First days of January to April 2021. -/
def monthStarts : STable ℚ := plainDates ([1, 2, 3, 4].map fun m : Int => ofCivil 2021 m 1 * DAY)

/-- The hypotheses of `C101_dates_partial` for first days of months, three months ahead, and the dates of the predictions. -/
example : (∀ r ∈ rowsOf monthStarts "s", OnGrid civilOfDay weekdayOfDay .MS 0 r.date) ∧ ((3 / 12 : ℚ) * samplesPerYear .MS).den = 1 ∧
    detectFreq (monthStarts.rows.map SRow.date) = some .MS ∧
    predictedDates (3 / 12) monthStarts = some ([1, 2, 3, 4, 5, 6, 7].map fun m : Int => ofCivil 2021 m 1 * DAY) := by
  refine ⟨?_, by decide +kernel, by decide +kernel, by decide +kernel⟩
  have : ∀ r ∈ rowsOf monthStarts "s", (r.date - 0) % dayNs = 0 ∧ (civilOfDay (r.date / dayNs)).2.2 = 1 := by decide +kernel
  exact this

/-- Neighbours on the grid. -/
example : ∃ a ∈ rowsOf (plainDates [0, DAY, 3 * DAY]) "s", ∃ b ∈ rowsOf (plainDates [0, DAY, 3 * DAY]) "s", Neighbours civilOfDay weekdayOfDay .D a.date b.date := by
  refine ⟨⟨0, none, 0, some 0, none⟩, by decide +kernel, ⟨DAY, none, 0, some 1, none⟩, by decide +kernel, ?_⟩
  unfold Neighbours OnGrid dayNs DAY
  dsimp only
  refine ⟨by omega, by omega, by omega, ?_⟩
  intro t h1 h2
  omega

/-- The linear trend is a candidate without missing values. -/
example : Unpinned (modelLinear : ForecastModel ℚ) ∧ NeverNull (modelLinear : ForecastModel ℚ) := ⟨linear_unpinned, neverNull_library.2.1⟩

/-- Two weeks from Monday to Friday; day 4 is a Monday. -/
def workDays : STable ℚ := plainDates ([4, 5, 6, 7, 8, 11, 12, 13, 14, 15].map fun i : Int => i * DAY)

/-- **C101 refuted for working days**: all samples are from Monday to Friday, and values are predicted for Saturdays and Sundays, in the past and in the
future. -/
theorem C101_counterexample_working_days : (∀ r ∈ workDays.rows, weekday r.date ≤ 4) ∧
    (predictedDates (3 / 365) workDays).map (fun l => l.filter fun d => decide (4 < weekday d)) = some [9 * DAY, 10 * DAY, 16 * DAY, 17 * DAY] := by
  decide +kernel

/-- **C101 refuted for every second day**: values are predicted for the days between, too. -/
theorem C101_counterexample_second_days :
    predictedDates (3 / 365) (plainDates ([0, 2, 4, 6, 8].map fun i : Int => i * DAY)) = some ([0, 1, 2, 3, 4, 5, 6, 7, 8, 9, 10, 11].map fun i : Int => i * DAY) := by
  decide +kernel

/-- The fifteenth of January to April 2021. -/
def midMonths : STable ℚ := plainDates ([1, 2, 3, 4].map fun m : Int => ofCivil 2021 m 15 * DAY)

/-- **C101 refuted for monthly dates in the middle of the month**: they count as dates at the end of months, none of which is in the table, and the run
raises a `ValueError`. -/
theorem C101_counterexample_mid_month : detectFreq (midMonths.rows.map SRow.date) = some .M ∧
    runForecast demoWorld { demoArgs [modelLinear] (some []) with years := 3 / 12 } "s" midMonths = .error .valueError := by
  have h : (match runForecast demoWorld { demoArgs [modelLinear] (some []) with years := 3 / 12 } "s" midMonths with
      | .error e => decide (e = .valueError) | .ok _ => false) = true := by decide +kernel
  refine ⟨by decide +kernel, ?_⟩
  cases e : runForecast demoWorld { demoArgs [modelLinear] (some []) with years := 3 / 12 } "s" midMonths with
  | error x => rw [e] at h; rw [of_decide_eq_true h]
  | ok r => rw [e] at h; cases h

/-- **C101 refuted for samples every two hours**: the run raises an `AttributeError`. -/
theorem C101_counterexample_two_hours :
    runForecast demoWorld (demoArgs [modelLinear] (some [])) "s" (plainDates ([0, 1, 2, 3, 4, 5, 6, 7].map fun i : Int => 2 * i * HOUR)) = .error .attributeError := by
  have h : (match runForecast demoWorld (demoArgs [modelLinear] (some [])) "s" (plainDates ([0, 1, 2, 3, 4, 5, 6, 7].map fun i : Int => 2 * i * HOUR)) with
      | .error e => decide (e = .attributeError) | .ok _ => false) = true := by decide +kernel
  cases e : runForecast demoWorld (demoArgs [modelLinear] (some [])) "s" (plainDates ([0, 1, 2, 3, 4, 5, 6, 7].map fun i : Int => 2 * i * HOUR)) with
  | error x => rw [e] at h; rw [of_decide_eq_true h]
  | ok r => rw [e] at h; cases h

/-- Four samples within an hour meet the hypotheses of `C101_counterexample_close`. -/
example : IsSeries (plainDates ([0, 1, 2, 3].map fun i : Int => i * 900000000000)) "s" "s" := ⟨rfl, by decide +kernel⟩

end Anticipy
