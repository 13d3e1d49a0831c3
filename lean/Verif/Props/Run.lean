import Verif.Spec.Run
import Verif.Props.Interval
import Verif.Props.Outliers

/-
C35, C40, C48: results of a forecast run.
-/
namespace Anticipy
open Spec
variable {K : Type} [Field K] [LinearOrder K]

/-! ### Stages of a run -/

/-- The intermediate results of a successful run. -/
structure RunStages [FloorRing K] (w : World K) (args : RunArgs K) (source : String) (df0 : Frame K) (d : List (DRow K) × List (MRow K)) where
  df2 : Frame K
  range : RangeMeta
  cand : AddMult × List (ForecastModel K)
  actuals : Frame K
  fits : List (MRow K) × List (DRow K)
  hOut : applyOutliers args.findOutliers (filterStart args.start df0) = .ok df2
  hRange : runRange (defaultWeights df2).1 = .ok range
  hCand : candidates w.ch args.models (defaultWeights df2).1 (runFreq df0) = .ok cand
  hAct : actualsInterpolated w.srt df0 (usedRows (defaultWeights df2).1) = .ok actuals
  hFits : fitLoop (w.env source) (mkSetup w args source df0 (defaultWeights df2).1 (defaultWeights df2).2 cand.1 actuals) 0 cand.2 = .ok fits
  hNe : fits.1 ≠ []
  hd : d = ((actualsClean (defaultWeights df2).1 source ⟨(defaultWeights df2).2, runFreq df0, range⟩ ++ fits.2).map (flagData (bestKey w.srt fits.1)),
    fits.1.map (flagMeta (bestKey w.srt fits.1)))

theorem runFits_stages [FloorRing K] (w : World K) (args : RunArgs K) (source : String) (df0 : Frame K) (d : List (DRow K) × List (MRow K))
    (h : runFits w args source df0 = .ok d) : Nonempty (RunStages w args source df0 d) := by
  unfold runFits at h
  simp only [bind, Except.bind] at h
  cases h1 : applyOutliers args.findOutliers (filterStart args.start df0) with
  | error e => rw [h1] at h; cases h
  | ok df2 =>
    rw [h1] at h
    dsimp only at h
    cases h2 : runRange (defaultWeights df2).1 with
    | error e => rw [h2] at h; cases h
    | ok range =>
      rw [h2] at h
      dsimp only at h
      cases h3 : candidates w.ch args.models (defaultWeights df2).1 (runFreq df0) with
      | error e => rw [h3] at h; cases h
      | ok cand =>
        rw [h3] at h
        dsimp only at h
        cases h4 : actualsInterpolated w.srt df0 (usedRows (defaultWeights df2).1) with
        | error e => rw [h4] at h; cases h
        | ok actuals =>
          rw [h4] at h
          dsimp only at h
          cases h5 : fitLoop (w.env source) (mkSetup w args source df0 (defaultWeights df2).1 (defaultWeights df2).2 cand.1 actuals) 0 cand.2 with
          | error e => rw [h5] at h; cases h
          | ok fits =>
            rw [h5] at h
            dsimp only at h
            split_ifs at h with hne
            cases h
            exact ⟨⟨df2, range, cand, actuals, fits, h1, h2, h3, h4, h5, hne, rfl⟩⟩

/-- The stages of a run with its prediction intervals. -/
theorem runSingle_inv [FloorRing K] (w : World K) (args : RunArgs K) (source : String) (df0 : Frame K) (res : RunResult K)
    (h : runSingle w args source df0 = .ok res) :
    ∃ d, runFits w args source df0 = .ok d ∧ res.data = (selectFits args.includeAll d).1 ∧ res.metadata = (selectFits args.includeAll d).2 ∧
      getPi (w.draw source) (toFTable df0.hasDate res.data) 100 args.nCum args.q1 args.q2 args.widening = .ok res.forecast := by
  unfold runSingle at h
  simp only [bind, Except.bind] at h
  cases h1 : runFits w args source df0 with
  | error e => rw [h1] at h; cases h
  | ok d =>
    rw [h1] at h
    dsimp only at h
    cases h2 : getPi (w.draw source) (toFTable df0.hasDate (selectFits args.includeAll d).1) 100 args.nCum args.q1 args.q2 args.widening with
    | error e => rw [h2] at h; cases h
    | ok f =>
      rw [h2] at h
      cases h
      exact ⟨d, rfl, rfl, rfl, h2⟩

/-! ### Weights and actual rows -/

omit [Field K] [LinearOrder K] in
theorem filterStart_rows (start : Option Timestamp) (df : Frame K) :
    filterStart start df = { df with rows := kept start df } := by
  unfold filterStart kept
  cases start with
  | none => simp
  | some d =>
    cases df with
    | mk a b rows => cases a <;> simp

/-- The samples with their weights, as used in a run. -/
theorem weights_stage [FloorRing K] [IsStrictOrderedRing K] (find : Bool) (df df2 : Frame K) (h : applyOutliers find df = .ok df2) :
    ∃ spike : List Bool, spike.length = df.rows.length ∧ (find = true → ∃ step, getModelOutliers df 3 = .ok (step, spike)) ∧
      (find = false → spike = List.replicate df.rows.length false) ∧ (defaultWeights df2).1 = weighted df spike := by
  unfold applyOutliers at h
  cases find with
  | true =>
    simp only [if_true, bind, Except.bind] at h
    cases h1 : getModelOutliers df 3 with
    | error e => rw [h1] at h; cases h
    | ok m =>
      rw [h1] at h
      cases h
      refine ⟨m.2, (C39_length df 3 m.1 m.2 h1).2, fun _ => ⟨m.1, rfl⟩, (by intro h; cases h), ?_⟩
      simp only [defaultWeights, if_true, weighted]
      congr 2
      funext r b
      unfold outlierWeight givenWeight
      cases df.hasWeight <;> cases b <;> simp
  | false =>
    simp only [Bool.false_eq_true, if_false] at h
    cases h
    refine ⟨List.replicate df.rows.length false, by simp, (by intro h; cases h), fun _ => rfl, ?_⟩
    have e : ∀ (g : Row K → Row K) (l : List (Row K)), List.zipWith (fun r (_ : Bool) => g r) l (List.replicate l.length false) = l.map g := by
      intro g l
      induction l with
      | nil => rfl
      | cons a l ih => simp [List.replicate_succ, ih]
    have e2 : ∀ l : List (Row K), List.zipWith (fun r (b : Bool) => { r with weight := (givenWeight df r).map fun w => if b then 0 else w }) l
        (List.replicate l.length false) = l.map fun r => { r with weight := givenWeight df r } := by
      intro l
      induction l with
      | nil => rfl
      | cons a l ih => simp [List.replicate_succ, ih]
    unfold defaultWeights weighted
    rw [e2]
    cases df with
    | mk a b rows => cases b <;> simp [givenWeight]

/-- Forecast rows are not actuals and carry a value. -/
theorem forecastRows_mem (s : FitSetup K) (m : ForecastModel K) (f : FitResult K) (l : List (DRow K)) (h : forecastRows s m f = .ok l) (r : DRow K)
    (hr : r ∈ l) : r.isActuals = false ∧ r.y ≠ none ∧ r.source = s.source ∧ r.model = m.name ∧ r.long = ⟨f.weights, s.freq, f.range⟩ ∧
      f.isFit = true ∧ r.weight = some 1 := by
  unfold forecastRows at h
  split_ifs at h with hf
  · cases h1 : listMin (axisOf s.used) with
    | none => rw [h1] at h; cases h
    | some a =>
      cases h2 : listMin (s.used.rows.map Row.x) with
      | none => rw [h1, h2] at h; cases h
      | some x0 =>
        rw [h1, h2] at h
        simp only [bind, Except.bind] at h
        cases h3 : extrapolate m f.params s.used.hasDate a s.stop s.freq s.years x0 s.actuals with
        | error e => rw [h3] at h; cases h
        | ok o =>
          rw [h3] at h
          cases h
          unfold fcastClean at hr
          obtain ⟨p, hp, rfl⟩ := List.mem_map.1 hr
          have := (List.mem_filter.1 hp).2
          refine ⟨rfl, ?_, rfl, rfl, rfl, hf, rfl⟩
          intro hn
          dsimp only at hn
          rw [hn] at this
          cases this
  · cases h; cases hr

/-- Every step of the loop over models. -/
theorem fitLoop_spec (env : Nat → Env K) (s : FitSetup K) (i : Nat) (l : List (ForecastModel K)) (out : List (MRow K) × List (DRow K))
    (h : fitLoop env s i l = .ok out) :
    out.1.length = l.length ∧
    (∀ k m, l[k]? = some m → ∃ f rows, fitModel (env (i + k)) m s.used (some s.actuals) s.useCache = .ok f ∧
      forecastRows s m f = .ok rows ∧ out.1[k]? = some (metaRow s m f) ∧ ∀ r ∈ rows, r ∈ out.2) ∧
    (∀ r ∈ out.2, ∃ k m f rows, l[k]? = some m ∧ fitModel (env (i + k)) m s.used (some s.actuals) s.useCache = .ok f ∧
      forecastRows s m f = .ok rows ∧ r ∈ rows) := by
  induction l generalizing i out with
  | nil =>
    unfold fitLoop at h
    cases h
    simp
  | cons m l ih =>
    unfold fitLoop at h
    simp only [bind, Except.bind] at h
    cases h1 : fitModel (env i) m s.used (some s.actuals) s.useCache with
    | error e => rw [h1] at h; cases h
    | ok f =>
      rw [h1] at h
      dsimp only at h
      cases h2 : forecastRows s m f with
      | error e => rw [h2] at h; cases h
      | ok rows =>
        rw [h2] at h
        dsimp only at h
        cases h3 : fitLoop env s (i + 1) l with
        | error e => rw [h3] at h; cases h
        | ok r =>
          rw [h3] at h
          cases h
          obtain ⟨hl, ha, hb⟩ := ih (i + 1) r h3
          refine ⟨by simp [hl], ?_, ?_⟩
          · intro k m' hk
            cases k with
            | zero =>
              simp only [List.getElem?_cons_zero, Option.some.injEq] at hk
              subst hk
              exact ⟨f, rows, h1, h2, rfl, fun r hr => List.mem_append_left _ hr⟩
            | succ k =>
              rw [List.getElem?_cons_succ] at hk
              obtain ⟨f', rows', e1, e2, e3, e4⟩ := ha k m' hk
              refine ⟨f', rows', ?_, e2, by simpa using e3, fun r hr => List.mem_append_right _ (e4 r hr)⟩
              rw [← e1]; congr 2; omega
          · intro q hq
            rcases List.mem_append.1 hq with hq | hq
            · exact ⟨0, m, f, rows, rfl, h1, h2, hq⟩
            · obtain ⟨k, m', f', rows', e1, e2, e3, e4⟩ := hb q hq
              refine ⟨k + 1, m', f', rows', by simpa using e1, ?_, e3, e4⟩
              rw [← e2]; congr 2; omega

/-- The actual rows of the data table. -/
theorem actual_rows [FloorRing K] (w : World K) (args : RunArgs K) (source : String) (df0 : Frame K) (d : List (DRow K) × List (MRow K))
    (st : RunStages w args source df0 d) :
    (selectFits args.includeAll d).1.filter DRow.isActuals =
      (actualsClean (defaultWeights st.df2).1 source ⟨(defaultWeights st.df2).2, runFreq df0, st.range⟩).map (flagData (bestKey w.srt st.fits.1)) := by
  have h0 : (selectFits args.includeAll d).1.filter DRow.isActuals = d.1.filter DRow.isActuals := by
    unfold selectFits
    split_ifs
    · rfl
    · rw [List.filter_filter]
      apply List.filter_congr
      intro r _
      cases r.isActuals <;> simp
  have hd1 : d.1 = _ := congrArg Prod.fst st.hd
  rw [h0, hd1, List.map_append, List.filter_append]
  have e1 : (st.fits.2.map (flagData (bestKey w.srt st.fits.1))).filter DRow.isActuals = [] := by
    rw [List.filter_eq_nil_iff]
    intro r hr
    obtain ⟨q, hq, rfl⟩ := List.mem_map.1 hr
    obtain ⟨k, m, f, rows, -, -, h3, h4⟩ := (fitLoop_spec _ _ _ _ _ st.hFits).2.2 q hq
    have := (forecastRows_mem _ _ _ _ h3 q h4).1
    simp [flagData, this]
  rw [e1, List.append_nil, List.filter_eq_self]
  intro r hr
  obtain ⟨q, hq, rfl⟩ := List.mem_map.1 hr
  unfold actualsClean at hq
  obtain ⟨q', -, rfl⟩ := List.mem_map.1 hq
  rfl

/-! ### C40 and C48 -/

/-- **C40, C48.** The actual rows of the result are the samples on or after the starting date, in order, with their values; their weights are those of
the input except for zero weights at detected spikes (only if the search is on). -/
theorem C40_weights [FloorRing K] [IsStrictOrderedRing K] (w : World K) (args : RunArgs K) (source : String) (df : Frame K) (res : RunResult K)
    (h : runSingle w args source df = .ok res) :
    ∃ spike : List Bool, spike.length = (kept args.start df).length ∧
      (args.findOutliers = true → ∃ step, getModelOutliers { df with rows := kept args.start df } 3 = .ok (step, spike)) ∧
      (args.findOutliers = false → ∀ b ∈ spike, b = false) ∧
      (res.data.filter DRow.isActuals).map (fun r => (r.date, r.y, r.weight)) =
        List.zipWith (fun r b => (position df r, r.y, (givenWeight df r).map fun w => if b then 0 else w)) (kept args.start df) spike := by
  obtain ⟨d, hd, hdata, -, -⟩ := runSingle_inv w args source df res h
  obtain ⟨st⟩ := runFits_stages w args source df d hd
  obtain ⟨spike, hl, h1, h2, h3⟩ := weights_stage _ _ _ st.hOut
  rw [filterStart_rows] at hl h1 h2 h3
  refine ⟨spike, hl, h1, ?_, ?_⟩
  · intro hf b hb
    rw [h2 hf] at hb
    exact (List.mem_replicate.1 hb).2
  · rw [hdata, actual_rows w args source df d st, h3]
    unfold actualsClean weighted
    rw [List.map_map, List.map_map]
    dsimp only
    rw [List.map_zipWith]
    rfl

/-- **C48.** Every sample on or after the starting date is an actual row with its value, and there are no other actual rows. -/
theorem C48_actuals [FloorRing K] [IsStrictOrderedRing K] (w : World K) (args : RunArgs K) (source : String) (df : Frame K) (res : RunResult K)
    (h : runSingle w args source df = .ok res) :
    (res.data.filter DRow.isActuals).map (fun r => (r.date, r.y)) = (kept args.start df).map fun r => (position df r, r.y) := by
  obtain ⟨spike, hl, -, -, he⟩ := C40_weights w args source df res h
  have := congrArg (List.map fun p : Timestamp × Option K × Option K => (p.1, p.2.1)) he
  rw [List.map_map, List.map_zipWith] at this
  refine Eq.trans this ?_
  clear this he
  generalize kept args.start df = rows at hl
  induction rows generalizing spike with
  | nil => simp
  | cons r rows ih =>
    cases spike with
    | nil => simp at hl
    | cons b spike =>
      rw [List.zipWith_cons_cons, List.map_cons, ih spike (by simpa using hl)]

/-! ### C35: the best fit -/

omit [Field K] in
theorem aicLe_trans (a b c : Ext K) (h1 : aicLe a b = true) (h2 : aicLe b c = true) : aicLe a c = true := by
  cases a <;> cases b <;> cases c <;> simp_all [aicLe, Ext.isNan, Ext.le]
  exact h1.trans h2

omit [Field K] in
theorem aicLe_total (a b : Ext K) : (aicLe a b || aicLe b a) = true := by
  cases a <;> cases b <;> simp [aicLe, Ext.isNan, Ext.le]
  exact le_total _ _

omit [Field K] in
theorem aicLe_not_better (a b : Ext K) (h : aicLe a b = true) : ¬ Better b a := by
  rintro (h' | ⟨h1, h2⟩)
  · cases a <;> cases b <;> simp_all [aicLe, Ext.isNan, Ext.le, Ext.lt]
    exact absurd h (not_le.2 h')
  · subst h2
    cases b <;> simp_all [aicLe, Ext.isNan, Ext.le]

omit [Field K] in
/-- The best fit is a fitted row with the lowest score. -/
theorem bestKey_spec (srt : SortAlg) (metas : List (MRow K)) :
    (bestKey srt metas = none ↔ ∀ r ∈ metas, r.isFit = false) ∧
    ∀ key, bestKey srt metas = some key → ∃ r ∈ metas, r.isFit = true ∧ key = (r.long, r.model) ∧
      ∀ q ∈ metas, q.isFit = true → ¬ Better q.aic r.aic := by
  have hp := srt.perm (fun a b : MRow K => aicLe a.aic b.aic) (metas.filter MRow.isFit)
  have hs := srt.sorted (fun a b : MRow K => aicLe a.aic b.aic) (metas.filter MRow.isFit)
    (fun a b c => aicLe_trans a.aic b.aic c.aic) (fun a b => aicLe_total a.aic b.aic)
  unfold bestKey
  generalize srt.run (fun a b : MRow K => aicLe a.aic b.aic) (metas.filter MRow.isFit) = l at hp hs
  constructor
  · rw [Option.map_eq_none_iff, List.head?_eq_none_iff]
    constructor
    · rintro rfl r hr
      have := List.filter_eq_nil_iff.1 (List.nil_perm.1 hp) r hr
      simpa using this
    · intro h
      have : metas.filter MRow.isFit = [] := List.filter_eq_nil_iff.2 fun r hr => by simp [h r hr]
      rw [this] at hp
      exact List.perm_nil.1 hp
  · intro key hk
    cases l with
    | nil => simp at hk
    | cons r l =>
      simp only [List.head?_cons, Option.map_some, Option.some.injEq] at hk
      have hr := List.mem_filter.1 (hp.mem_iff.1 (List.mem_cons_self))
      refine ⟨r, hr.1, hr.2, hk.symm, ?_⟩
      intro q hq hqf
      have hq' : q ∈ r :: l := hp.mem_iff.2 (List.mem_filter.2 ⟨hq, hqf⟩)
      apply aicLe_not_better
      rcases List.mem_cons.1 hq' with rfl | hq'
      · have := aicLe_total q.aic q.aic
        simpa using this
      · exact (List.pairwise_cons.1 hs).1 q hq'

/-- All flagged rows of a run carry the key of the best fit. -/
theorem flagged_key [FloorRing K] (w : World K) (args : RunArgs K) (source : String) (df0 : Frame K) (d : List (DRow K) × List (MRow K))
    (st : RunStages w args source df0 d) :
    (∀ r ∈ d.2, r.isBest = decide (bestKey w.srt st.fits.1 = some (r.long, r.model))) ∧
    (∀ r ∈ d.1, r.isBest = decide (bestKey w.srt st.fits.1 = some (r.long, r.model))) := by
  have hd1 : d.1 = _ := congrArg Prod.fst st.hd
  have hd2 : d.2 = _ := congrArg Prod.snd st.hd
  constructor
  · intro r hr
    rw [hd2] at hr
    obtain ⟨q, -, rfl⟩ := List.mem_map.1 hr
    rfl
  · intro r hr
    rw [hd1] at hr
    obtain ⟨q, -, rfl⟩ := List.mem_map.1 hr
    rfl

/-- **C35.** At most one model is flagged as best fit. -/
theorem C35_one_model [FloorRing K] (w : World K) (args : RunArgs K) (source : String) (df : Frame K) (res : RunResult K)
    (h : runSingle w args source df = .ok res) (r r' : MRow K) (hr : r ∈ res.metadata) (hr' : r' ∈ res.metadata) (hb : r.isBest = true)
    (hb' : r'.isBest = true) : r.model = r'.model ∧ r.long = r'.long := by
  obtain ⟨d, hd, -, hmeta, -⟩ := runSingle_inv w args source df res h
  obtain ⟨st⟩ := runFits_stages w args source df d hd
  have hsub : ∀ q ∈ res.metadata, q ∈ d.2 := by
    intro q hq
    rw [hmeta] at hq
    unfold selectFits at hq
    split_ifs at hq
    · exact hq
    · exact (List.mem_filter.1 hq).1
  have k1 := (flagged_key w args source df d st).1 r (hsub r hr)
  have k2 := (flagged_key w args source df d st).1 r' (hsub r' hr')
  rw [hb] at k1
  rw [hb'] at k2
  have e1 := of_decide_eq_true k1.symm
  have e2 := of_decide_eq_true k2.symm
  rw [e1] at e2
  simp only [Option.some.injEq, Prod.mk.injEq] at e2
  exact ⟨e2.2, e2.1⟩

/-- **C35.** If some model could be fitted, a fitted model is flagged, and no fitted model has a better score than that one. (All fits are requested, so that
the metadata shows every candidate.) -/
theorem C35_lowest [FloorRing K] (w : World K) (args : RunArgs K) (source : String) (df : Frame K) (res : RunResult K)
    (hall : args.includeAll = true) (h : runSingle w args source df = .ok res) (hfit : ∃ r ∈ res.metadata, r.isFit = true) :
    ∃ b ∈ res.metadata, b.isBest = true ∧ b.isFit = true ∧ ∀ q ∈ res.metadata, q.isFit = true → ¬ Better q.aic b.aic := by
  obtain ⟨d, hd, -, hmeta, -⟩ := runSingle_inv w args source df res h
  obtain ⟨st⟩ := runFits_stages w args source df d hd
  have hd2 : d.2 = st.fits.1.map (flagMeta (bestKey w.srt st.fits.1)) := congrArg Prod.snd st.hd
  unfold selectFits at hmeta
  rw [if_pos hall] at hmeta
  rw [hmeta, hd2] at hfit ⊢
  obtain ⟨hnone, hsome⟩ := bestKey_spec w.srt st.fits.1
  obtain ⟨r, hr, hrf⟩ := hfit
  obtain ⟨r0, hr0, rfl⟩ := List.mem_map.1 hr
  cases hk : bestKey w.srt st.fits.1 with
  | none =>
    have := (hnone.1 hk) r0 hr0
    rw [show (flagMeta (bestKey w.srt st.fits.1) r0).isFit = r0.isFit from rfl, this] at hrf
    cases hrf
  | some key =>
    obtain ⟨b, hb, hbf, rfl, hbest⟩ := hsome key hk
    refine ⟨flagMeta (some (b.long, b.model)) b, List.mem_map.2 ⟨b, hb, rfl⟩, by simp [flagMeta], hbf, ?_⟩
    intro q hq hqf
    obtain ⟨q0, hq0, rfl⟩ := List.mem_map.1 hq
    exact hbest q0 hq0 hqf

/-- **C35.** With different model names exactly one row is flagged if something could be fitted, otherwise none. -/
theorem C35_unique [FloorRing K] (w : World K) (args : RunArgs K) (source : String) (df : Frame K) (res : RunResult K)
    (hall : args.includeAll = true) (h : runSingle w args source df = .ok res) (hnames : (res.metadata.map MRow.model).Nodup) :
    (res.metadata.filter MRow.isBest).length = if res.metadata.any MRow.isFit then 1 else 0 := by
  have hone : ∀ r ∈ res.metadata, ∀ r' ∈ res.metadata, r.isBest = true → r'.isBest = true → r.model = r'.model :=
    fun r hr r' hr' hb hb' => (C35_one_model w args source df res h r r' hr hr' hb hb').1
  have hle : ∀ l : List (MRow K), (l.map MRow.model).Nodup → (∀ r ∈ l, ∀ r' ∈ l, r.isBest = true → r'.isBest = true → r.model = r'.model) →
      (l.filter MRow.isBest).length ≤ 1 := by
    intro l hn ho
    match hf : l.filter MRow.isBest with
    | [] => simp
    | [a] => simp
    | a :: b :: t =>
      exfalso
      have hsub : (l.filter MRow.isBest).Sublist l := List.filter_sublist
      have hn' : ((l.filter MRow.isBest).map MRow.model).Nodup := hn.sublist (hsub.map _)
      rw [hf] at hn'
      have ha := List.mem_filter.1 (show a ∈ l.filter MRow.isBest by rw [hf]; simp)
      have hb := List.mem_filter.1 (show b ∈ l.filter MRow.isBest by rw [hf]; simp)
      have := ho a ha.1 b hb.1 ha.2 hb.2
      simp [this] at hn'
  have h1 := hle _ hnames hone
  split_ifs with hf
  · rw [List.any_eq_true] at hf
    obtain ⟨b, hb, hbb, -, -⟩ := C35_lowest w args source df res hall h hf
    have : 0 < (res.metadata.filter MRow.isBest).length := List.length_pos_of_mem (List.mem_filter.2 ⟨hb, hbb⟩)
    omega
  · rw [List.length_eq_zero_iff, List.filter_eq_nil_iff]
    intro r hr hb
    obtain ⟨d, hd, -, hmeta, -⟩ := runSingle_inv w args source df res h
    obtain ⟨st⟩ := runFits_stages w args source df d hd
    have hd2 : d.2 = st.fits.1.map (flagMeta (bestKey w.srt st.fits.1)) := congrArg Prod.snd st.hd
    unfold selectFits at hmeta
    rw [if_pos hall] at hmeta
    rw [hmeta] at hr
    have hk := (flagged_key w args source df d st).1 r hr
    rw [hb] at hk
    obtain ⟨b, hbm, hbf, -, -⟩ := (bestKey_spec w.srt st.fits.1).2 _ (of_decide_eq_true hk.symm)
    apply hf
    rw [List.any_eq_true, hmeta, hd2]
    exact ⟨_, List.mem_map.2 ⟨b, hbm, rfl⟩, hbf⟩

/-! ### C48: rows of the result -/

/-- **C48.** Unless all fits are requested, every forecast row is flagged and belongs to the model flagged in the metadata. -/
theorem C48_best_only [FloorRing K] (w : World K) (args : RunArgs K) (source : String) (df : Frame K) (res : RunResult K)
    (hall : args.includeAll = false) (h : runSingle w args source df = .ok res) :
    (∀ m ∈ res.metadata, m.isBest = true) ∧
    ∀ r ∈ res.data, r.isActuals = false → r.isBest = true ∧ r.y ≠ none ∧ r.source = source ∧
      ∃ m ∈ res.metadata, m.isBest = true ∧ m.isFit = true ∧ m.model = r.model ∧ m.long = r.long := by
  obtain ⟨d, hd, hdata, hmeta, -⟩ := runSingle_inv w args source df res h
  obtain ⟨st⟩ := runFits_stages w args source df d hd
  have hd1 : d.1 = _ := congrArg Prod.fst st.hd
  have hd2 : d.2 = st.fits.1.map (flagMeta (bestKey w.srt st.fits.1)) := congrArg Prod.snd st.hd
  unfold selectFits at hdata hmeta
  rw [if_neg (by simp [hall])] at hdata hmeta
  rw [hdata, hmeta]
  constructor
  · intro m hm
    exact (List.mem_filter.1 hm).2
  · intro r hr hra
    have hr' := List.mem_filter.1 hr
    have hb : r.isBest = true := by
      have := hr'.2
      rw [hra, Bool.or_false] at this
      exact this
    have hk := (flagged_key w args source df d st).2 r hr'.1
    rw [hb] at hk
    have hk := of_decide_eq_true hk.symm
    obtain ⟨b, hbm, hbf, hbk, -⟩ := (bestKey_spec w.srt st.fits.1).2 _ hk
    simp only [Prod.mk.injEq] at hbk
    have hrm := hr'.1
    rw [hd1] at hrm
    obtain ⟨q, hq, rfl⟩ := List.mem_map.1 hrm
    rcases List.mem_append.1 hq with hq | hq
    · unfold actualsClean at hq
      obtain ⟨q', -, rfl⟩ := List.mem_map.1 hq
      cases hra
    · obtain ⟨k, m, f, rows, -, -, h3, h4⟩ := (fitLoop_spec _ _ _ _ _ st.hFits).2.2 q hq
      have hrow := forecastRows_mem _ _ _ _ h3 q h4
      have hkb : bestKey w.srt st.fits.1 = some (b.long, b.model) := by rw [← hbk.1, ← hbk.2]; exact hk
      refine ⟨hb, hrow.2.1, hrow.2.2.1, flagMeta (bestKey w.srt st.fits.1) b, ?_, ?_, hbf, hbk.2.symm, hbk.1.symm⟩
      · rw [List.mem_filter, hd2]
        refine ⟨List.mem_map.2 ⟨b, hbm, rfl⟩, ?_⟩
        exact decide_eq_true hkb
      · exact decide_eq_true hkb

/-- **C48.** Asking for all fits only adds rows: the smaller tables are the flagged rows (and actuals) of the larger ones. -/
theorem C48_all_fits_adds [FloorRing K] (w : World K) (args : RunArgs K) (source : String) (df : Frame K) (res resAll : RunResult K)
    (h : runSingle w { args with includeAll := false } source df = .ok res)
    (hAll : runSingle w { args with includeAll := true } source df = .ok resAll) :
    res.data = resAll.data.filter (fun r => r.isBest || r.isActuals) ∧ res.metadata = resAll.metadata.filter MRow.isBest := by
  obtain ⟨d, hd, hdata, hmeta, -⟩ := runSingle_inv _ _ _ _ _ h
  obtain ⟨d', hd', hdata', hmeta', -⟩ := runSingle_inv _ _ _ _ _ hAll
  have : runFits w { args with includeAll := false } source df = runFits w { args with includeAll := true } source df := rfl
  rw [this, hd'] at hd
  cases hd
  rw [hdata, hmeta, hdata', hmeta']
  exact ⟨rfl, rfl⟩

end Anticipy
