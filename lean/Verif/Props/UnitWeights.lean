import Verif.Spec.UnitWeights
import Verif.Props.Run
import Verif.Props.Outliers
import Verif.Props.RunExamples

/-
C90: weights that are all one, and a search for outliers that finds nothing, change nothing but the descriptive text of the weights.
-/
namespace Anticipy
open Spec
variable {K : Type} [Field K] [LinearOrder K]

/-! ### Weights and the gap-filled table -/

/-- A sample without its weight. -/
def bareRow (r : Row K) : Row K := { r with weight := none }
/-- A series without its weights. -/
def bare (df : Frame K) : Frame K := ⟨df.hasDate, false, df.rows.map bareRow⟩

omit [Field K] [LinearOrder K] in
theorem interpolateDf_bare (df : Frame K) : interpolateDf (bare df) = (interpolateDf df).map bare := by
  obtain ⟨hd, hw, rows⟩ := df
  have h1 : (rows.map bareRow).map Row.date = rows.map Row.date := by rw [List.map_map]; rfl
  have h2 : (rows.map bareRow).map Row.x = rows.map Row.x := by rw [List.map_map]; rfl
  have hf : ∀ t, findRow (rows.map bareRow) t = (findRow rows t).map bareRow := by
    intro t
    unfold findRow
    rw [List.find?_map]
    rfl
  cases hd with
  | true =>
    unfold interpolateDf
    simp only [bare, if_true, h1]
    by_cases hb : nuniqueDiff (dedupBy (fun t : Timestamp => t) (rows.map Row.date)) ≤ 1 ∧
        sparseDaily (detectFreq (rows.map Row.date)) (diffs (dedupBy (fun t : Timestamp => t) (rows.map Row.date))) = false
    · rw [if_pos hb, if_pos hb]; rfl
    rw [if_neg hb, if_neg hb]
    by_cases hdup : hasDup (rows.map Row.date) = true
    · rw [if_pos hdup, if_pos hdup]; rfl
    rw [if_neg hdup, if_neg hdup]
    cases listMin (rows.map Row.date) with
    | none => rfl
    | some a =>
      cases listMax (rows.map Row.date) with
      | none => rfl
      | some b =>
        dsimp only
        simp only [hf, List.map_map, Function.comp_def, Option.map_map]
        have e1 : (fun r : Row K => (((bareRow r).x : Int) : ℚ)) = fun r : Row K => ((r.x : Int) : ℚ) := rfl
        simp only [e1]
        generalize toIntCol _ = ti
        cases ti with
        | error e => rfl
        | ok xs =>
          simp only [Except.map, bare, List.map_zipWith, List.zipWith_map_left]
          congr 2
          congr 1
          funext t x
          cases findRow rows t with
          | none => rfl
          | some r => rfl
  | false =>
    unfold interpolateDf
    simp only [bare, Bool.false_eq_true, if_false, h2]
    by_cases hb : nuniqueDiff (dedupBy (fun t : Int => t) (rows.map Row.x)) ≤ 1
    · rw [if_pos hb, if_pos hb]; rfl
    rw [if_neg hb, if_neg hb]
    by_cases hdup : hasDup (rows.map Row.x) = true
    · rw [if_pos hdup, if_pos hdup]; rfl
    rw [if_neg hdup, if_neg hdup]
    cases listMin (rows.map Row.x) with
    | none => rfl
    | some a =>
      cases listMax (rows.map Row.x) with
      | none => rfl
      | some b =>
        dsimp only
        simp only [Except.map, bare, List.map_map]
        congr 2
        apply List.map_congr_left
        intro i _
        simp only [Function.comp]
        rw [List.find?_map]
        have : ((fun r : Row K => decide (r.x = a + (i : Int))) ∘ bareRow) = fun r : Row K => decide (r.x = a + (i : Int)) := rfl
        rw [this]
        cases rows.find? (fun r => decide (r.x = a + (i : Int))) with
        | none => rfl
        | some r => rfl

/-- The gap-filled table does not look at the weights of the series. -/
theorem actuals_bare (srt : SortAlg) (df used : Frame K) : actualsInterpolated srt (bare df) used = actualsInterpolated srt df used := by
  unfold actualsInterpolated
  rw [interpolateDf_bare]
  cases interpolateDf df with
  | error e => rfl
  | ok d =>
    simp only [Except.map, bind, Except.bind, bare]
    rw [srt.natural (fun a b : Row K => decide (a.x ≤ b.x)) (fun a b : Row K => decide (a.x ≤ b.x)) bareRow _ (fun _ _ _ _ => rfl)]
    congr 2
    rw [List.flatMap_map]
    rfl

/-! ### The text of the weights -/

/-- Change of the text of the weights in a metadata row. -/
def textM (wm : WeightsMeta K) (r : MRow K) : MRow K := { r with weights := wm }
/-- Change of the text of the weights in a data row. -/
def textD (wm : WeightsMeta K) (r : DRow K) : DRow K := if r.isActuals then { r with long := { r.long with weights := wm } } else r

theorem fitLoop_text (env : Nat → Env K) (wm : WeightsMeta K) (st : FitSetup K) (l : List (ForecastModel K)) (i : Nat) :
    fitLoop env { st with weights := wm } i l = (fitLoop env st i l).map fun d => (d.1.map (textM wm), d.2) := by
  induction l generalizing i with
  | nil => rfl
  | cons m l ih =>
    simp only [fitLoop, bind, Except.bind]
    cases fitModel (env i) m st.used (some st.actuals) st.useCache with
    | error e => rfl
    | ok f =>
      dsimp only
      have hr : forecastRows { st with weights := wm } m f = forecastRows st m f := rfl
      rw [hr, ih]
      cases forecastRows st m f with
      | error e => rfl
      | ok d =>
        cases fitLoop env st (i + 1) l with
        | error e => rfl
        | ok r => rfl

theorem bestKey_text (srt : SortAlg) (wm : WeightsMeta K) (metas : List (MRow K)) : bestKey srt (metas.map (textM wm)) = bestKey srt metas := by
  unfold bestKey
  have h1 : (metas.map (textM wm)).filter MRow.isFit = (metas.filter MRow.isFit).map (textM wm) := by
    rw [List.filter_map]
    rfl
  rw [h1, srt.natural (fun a b : MRow K => aicLe a.aic b.aic) (fun a b : MRow K => aicLe a.aic b.aic) (textM wm) _ (by intros; rfl),
    List.head?_map, Option.map_map]
  rfl

/-- Two runs on the same samples whose weights agree after the search for outliers differ at most in the text of the weights. -/
theorem runSingle_text [FloorRing K] [IsStrictOrderedRing K] (w : World K) (args args' : RunArgs K) (source : String) (df df' df2 df2' : Frame K)
    (hb : bare df' = bare df) (ha : { args' with findOutliers := args.findOutliers } = args)
    (h2 : applyOutliers args.findOutliers (filterStart args.start df) = .ok df2)
    (h2' : applyOutliers args'.findOutliers (filterStart args.start df') = .ok df2') (hw : (defaultWeights df2').1 = (defaultWeights df2).1)
    (res : RunResult K) (h : runSingle w args source df = .ok res) (hn : ∀ b ∈ res.metadata, b.model ≠ "actuals") :
    runSingle w args' source df' = .ok (weightsText (defaultWeights df2').2 res) := by
  obtain ⟨d, hd, hdata, hmeta, hpi⟩ := runSingle_inv w args source df res h
  obtain ⟨st⟩ := runFits_stages w args source df d hd
  have hst := st.hOut
  rw [h2] at hst
  have hst := Except.ok.inj hst
  have hdate : df'.hasDate = df.hasDate := by
    have := congrArg (fun g : Frame K => g.hasDate) hb
    simpa only [bare] using this
  have hrows : df'.rows.map Row.date = df.rows.map Row.date := by
    have := congrArg (fun g : Frame K => g.rows.map Row.date) hb
    simpa [bare, bareRow, Function.comp_def] using this
  have hfreq : runFreq df' = runFreq df := by
    unfold runFreq
    rw [hdate, hrows]
  have hmodels : args'.models = args.models := by rw [← ha]
  have hstart : args'.start = args.start := by rw [← ha]
  have hyears : args'.years = args.years := by rw [← ha]
  have hcache : args'.useCache = args.useCache := by rw [← ha]
  have hfit : runFits w args' source df' = .ok (d.1.map (textD (defaultWeights df2').2), d.2.map (textM (defaultWeights df2').2)) := by
    unfold runFits
    rw [hstart, h2']
    simp only [bind, Except.bind]
    rw [hw, hst, st.hRange]
    dsimp only
    rw [hmodels, hfreq, st.hCand]
    dsimp only
    rw [← actuals_bare, hb, actuals_bare, st.hAct]
    dsimp only
    have hset : mkSetup w args' source df' (defaultWeights st.df2).1 (defaultWeights df2').2 st.cand.1 st.actuals =
        { mkSetup w args source df (defaultWeights st.df2).1 (defaultWeights st.df2).2 st.cand.1 st.actuals with weights := (defaultWeights df2').2 } := by
      unfold mkSetup
      rw [hfreq, hmodels, hyears, hcache]
    rw [hset, fitLoop_text, st.hFits]
    simp only [Except.map]
    rw [if_neg (by simpa using st.hNe), bestKey_text]
    have hd1 : d.1 = _ := congrArg Prod.fst st.hd
    have hd2 : d.2 = _ := congrArg Prod.snd st.hd
    have hkey : ∀ l, bestKey w.srt st.fits.1 ≠ some (l, "actuals") := by
      intro l hk
      obtain ⟨r, hr, hf, he, -⟩ := (bestKey_spec w.srt st.fits.1).2 _ hk
      have he := Prod.mk.inj he
      refine hn (flagMeta (bestKey w.srt st.fits.1) r) ?_ he.2.symm
      rw [hmeta]
      have hmem : flagMeta (bestKey w.srt st.fits.1) r ∈ d.2 := by
        rw [hd2]
        exact List.mem_map_of_mem hr
      have hbest : (flagMeta (bestKey w.srt st.fits.1) r).isBest = true := by
        unfold flagMeta
        dsimp only
        rw [hk, he.1, he.2]
        simp
      unfold selectFits
      split_ifs
      · exact hmem
      · exact List.mem_filter.2 ⟨hmem, hbest⟩
    rw [hd1, hd2, List.map_append, List.map_append, List.map_append]
    have e1 : (actualsClean (defaultWeights st.df2).1 source ⟨(defaultWeights df2').2, runFreq df, st.range⟩).map (flagData (bestKey w.srt st.fits.1)) =
        ((actualsClean (defaultWeights st.df2).1 source ⟨(defaultWeights st.df2).2, runFreq df, st.range⟩).map (flagData (bestKey w.srt st.fits.1))).map
          (textD (defaultWeights df2').2) := by
      unfold actualsClean
      rw [List.map_map, List.map_map, List.map_map]
      apply List.map_congr_left
      intro r _
      simp only [Function.comp, flagData, textD, if_true]
      rw [decide_eq_false (hkey _), decide_eq_false (hkey _)]
    have e2 : st.fits.2.map (flagData (bestKey w.srt st.fits.1)) =
        (st.fits.2.map (flagData (bestKey w.srt st.fits.1))).map (textD (defaultWeights df2').2) := by
      rw [List.map_map]
      apply List.map_congr_left
      intro r hr
      obtain ⟨k, m, f, rows, -, -, h3, h4⟩ := (fitLoop_spec _ _ _ _ _ st.hFits).2.2 r hr
      have := (forecastRows_mem _ _ _ _ h3 r h4).1
      simp only [Function.comp, flagData, textD, this, Bool.false_eq_true, if_false]
    rw [← e1, ← e2]
    simp only [List.map_map]
    rfl
  have hall : args'.includeAll = args.includeAll := by rw [← ha]
  have hsel : ∀ wm : WeightsMeta K, selectFits args.includeAll (d.1.map (textD wm), d.2.map (textM wm)) =
      ((selectFits args.includeAll d).1.map (textD wm), (selectFits args.includeAll d).2.map (textM wm)) := by
    intro wm
    unfold selectFits
    cases args.includeAll with
    | true => rfl
    | false =>
      simp only [Bool.false_eq_true, if_false, List.filter_map]
      congr 2
      apply List.filter_congr
      intro r _
      simp only [Function.comp, textD]
      split_ifs <;> rfl
  have htab : ∀ wm : WeightsMeta K, toFTable df'.hasDate ((selectFits args.includeAll d).1.map (textD wm)) = toFTable df.hasDate (selectFits args.includeAll d).1 := by
    intro wm
    unfold toFTable
    rw [hdate, List.map_map]
    congr 1
    apply List.map_congr_left
    intro r _
    simp only [Function.comp, textD]
    split_ifs <;> rfl
  unfold runSingle
  rw [hfit]
  simp only [bind, Except.bind]
  rw [hall, hsel]
  dsimp only
  rw [htab]
  have e3 : args'.nCum = args.nCum ∧ args'.q1 = args.q1 ∧ args'.q2 = args.q2 ∧ args'.widening = args.widening := by rw [← ha]; exact ⟨rfl, rfl, rfl, rfl⟩
  rw [e3.1, e3.2.1, e3.2.2.1, e3.2.2.2, ← hdata, hpi]
  dsimp only
  unfold weightsText
  rw [hdata, hmeta]
  rfl

omit [Field K] [LinearOrder K] in
theorem filterStart_ones [One K] (s : Option Timestamp) (df : Frame K) : filterStart s (withOnes df) = withOnes (filterStart s df) := by
  obtain ⟨hd, hw, rows⟩ := df
  cases s with
  | none => rfl
  | some t =>
    cases hd with
    | false => rfl
    | true =>
      simp only [filterStart, withOnes, if_true, List.filter_map]
      rfl

theorem ones_range (df : Frame K) (hne : df.rows ≠ []) : (defaultWeights (withOnes df)).2 = .range (some 1) (some 1) := by
  unfold defaultWeights
  rw [if_pos (show (withOnes df).hasWeight = true from rfl)]
  have hall : (withOnes df).rows.filterMap Row.weight = df.rows.map fun _ => (1 : K) := by
    unfold withOnes
    rw [List.filterMap_map]
    simp [Function.comp_def]
  rw [hall]
  have hmem : ∀ v ∈ df.rows.map (fun _ => (1 : K)), v = 1 := by
    intro v hv
    obtain ⟨r, -, rfl⟩ := List.mem_map.1 hv
    rfl
  have hone : (1 : K) ∈ df.rows.map (fun _ => (1 : K)) := by
    obtain ⟨r, hr⟩ := List.exists_mem_of_ne_nil _ hne
    exact List.mem_map.2 ⟨r, hr, rfl⟩
  dsimp only
  rw [(listMin_some _ 1).2 ⟨hone, fun v hv => (hmem v hv).ge⟩, (listMax_some _ 1).2 ⟨hone, fun v hv => (hmem v hv).le⟩]

theorem ones_weights (df : Frame K) (hw : df.hasWeight = false) : (defaultWeights (withOnes df)).1 = (defaultWeights df).1 := by
  unfold defaultWeights
  rw [if_pos (show (withOnes df).hasWeight = true from rfl), hw]
  rfl

/-- A run without a search for outliers has samples from the starting date on. -/
theorem run_nonempty [FloorRing K] [IsStrictOrderedRing K] (w : World K) (args : RunArgs K) (source : String) (df : Frame K)
    (hout : args.findOutliers = false) (res : RunResult K) (h : runSingle w args source df = .ok res) : (filterStart args.start df).rows ≠ [] := by
  obtain ⟨d, hd, -⟩ := runSingle_inv w args source df res h
  obtain ⟨st⟩ := runFits_stages w args source df d hd
  intro hc
  have h1 := st.hOut
  rw [hout] at h1
  have h1 := Except.ok.inj h1
  have h2 := st.hRange
  rw [← h1] at h2
  unfold runRange axisOf defaultWeights at h2
  split_ifs at h2 <;> simp [hc, listMin] at h2

theorem bare_ones (df : Frame K) : bare (withOnes df) = bare df := by
  unfold bare withOnes
  rw [List.map_map]
  rfl

/-- **C90.** A weight column that is one everywhere gives the same result as no weight column, except for the text that describes the weights. -/
theorem C90_ones [FloorRing K] [IsStrictOrderedRing K] (w : World K) (args : RunArgs K) (source : String) (df : Frame K) (hw : df.hasWeight = false)
    (hout : args.findOutliers = false) (res : RunResult K) (h : runSingle w args source df = .ok res) (hn : ∀ b ∈ res.metadata, b.model ≠ "actuals") :
    runSingle w args source (withOnes df) = .ok (weightsText (.range (some 1) (some 1)) res) := by
  have hwf : (filterStart args.start df).hasWeight = false := by rw [filterStart_rows]; exact hw
  have key := runSingle_text w args args source df (withOnes df) (filterStart args.start df) (withOnes (filterStart args.start df)) (bare_ones df) rfl
    (by rw [hout]; rfl) (by rw [hout, filterStart_ones]; rfl) (ones_weights _ hwf) res h hn
  rw [key, ones_range _ (run_nonempty w args source df hout res h)]

/-! ### The search for outliers -/

theorem search_ones [FloorRing K] (df : Frame K) (hw : df.hasWeight = false) : applyOutliers true (withOnes df) = applyOutliers true df := by
  obtain ⟨hd, hwt, rows⟩ := df
  have hw : hwt = false := hw
  subst hw
  have hy : (rows.map fun r : Row K => { r with weight := some 1 }).map Row.y = rows.map Row.y := by rw [List.map_map]; rfl
  have hk : outlierKeys (withOnes ⟨hd, false, rows⟩) = outlierKeys ⟨hd, false, rows⟩ := by
    unfold outlierKeys withOnes
    simp only [List.map_map]
    rfl
  have hm : getModelOutliers (withOnes ⟨hd, false, rows⟩) 3 = getModelOutliers ⟨hd, false, rows⟩ 3 := by
    unfold getModelOutliers
    rw [hk]
    simp only [withOnes, hy]
  unfold applyOutliers
  rw [if_pos rfl, if_pos rfl, hm]
  cases getModelOutliers (⟨hd, false, rows⟩ : Frame K) 3 with
  | error e => rfl
  | ok m =>
    simp only [bind, Except.bind, withOnes, List.zipWith_map_left]
    congr 2
    congr 1
    funext r b
    simp only [outlierWeight, if_true, Bool.false_eq_true, if_false, Option.map_some, one_mul]

/-- **C90.** With the search for outliers a weight column that is one everywhere makes no difference at all. -/
theorem C90_ones_search [FloorRing K] [IsStrictOrderedRing K] (w : World K) (args : RunArgs K) (source : String) (df : Frame K)
    (hw : df.hasWeight = false) (hout : args.findOutliers = true) : runSingle w args source (withOnes df) = runSingle w args source df := by
  have hwf : (filterStart args.start df).hasWeight = false := by rw [filterStart_rows]; exact hw
  have hfreq : runFreq (withOnes df) = runFreq df := by
    unfold runFreq withOnes
    simp only [List.map_map]
    rfl
  have hact : ∀ used, actualsInterpolated w.srt (withOnes df) used = actualsInterpolated w.srt df used := by
    intro used
    rw [← actuals_bare, bare_ones, actuals_bare]
  have hset : ∀ a b c d, mkSetup w args source (withOnes df) a b c d = mkSetup w args source df a b c d := by
    intro a b c d
    unfold mkSetup
    rw [hfreq]
  have hfit : runFits w args source (withOnes df) = runFits w args source df := by
    unfold runFits
    rw [hout, filterStart_ones, search_ones _ hwf]
    simp only [hact, hset, hfreq]
  unfold runSingle
  rw [hfit]
  rfl

omit [LinearOrder K] in
theorem outlier_idle (hw : Bool) (rows : List (Row K)) (spike : List Bool) (hl : spike.length = rows.length) (hs : ∀ b ∈ spike, b = false) :
    List.zipWith (outlierWeight hw) rows spike = if hw then rows else rows.map fun r => { r with weight := some 1 } := by
  induction rows generalizing spike with
  | nil => cases hw <;> cases spike <;> rfl
  | cons r rows ih =>
    cases spike with
    | nil => simp at hl
    | cons b spike =>
      have hb := hs b List.mem_cons_self
      subst hb
      rw [List.zipWith_cons_cons, ih spike (by simpa using hl) (fun c hc => hs c (List.mem_cons_of_mem _ hc))]
      cases hw with
      | true =>
        obtain ⟨d, x, y, wt⟩ := r
        cases wt <;> simp [outlierWeight]
      | false => simp [outlierWeight]

/-- **C90.** A search for outliers that finds no spike in a series with weights changes nothing. -/
theorem C90_search_weighted [FloorRing K] [IsStrictOrderedRing K] (w : World K) (args : RunArgs K) (source : String) (df : Frame K)
    (hw : df.hasWeight = true) (step spike : List Bool) (hm : getModelOutliers (filterStart args.start df) 3 = .ok (step, spike))
    (hs : ∀ b ∈ spike, b = false) :
    runSingle w { args with findOutliers := true } source df = runSingle w { args with findOutliers := false } source df := by
  have hwf : (filterStart args.start df).hasWeight = true := by rw [filterStart_rows]; exact hw
  have happ : applyOutliers true (filterStart args.start df) = applyOutliers false (filterStart args.start df) := by
    unfold applyOutliers
    rw [if_pos rfl, if_neg (by simp), hm]
    simp only [bind, Except.bind]
    rw [outlier_idle _ _ _ (C39_length _ _ _ _ hm).2 hs, if_pos hwf, ← hwf]
  unfold runSingle runFits
  rw [happ]
  rfl

/-- **C90.** A search for outliers that finds no spike in a series without weights changes nothing but the text that describes the weights. -/
theorem C90_search [FloorRing K] [IsStrictOrderedRing K] (w : World K) (args : RunArgs K) (source : String) (df : Frame K) (hw : df.hasWeight = false)
    (hout : args.findOutliers = false) (step spike : List Bool) (hm : getModelOutliers (filterStart args.start df) 3 = .ok (step, spike))
    (hs : ∀ b ∈ spike, b = false) (res : RunResult K) (h : runSingle w args source df = .ok res) (hn : ∀ b ∈ res.metadata, b.model ≠ "actuals") :
    runSingle w { args with findOutliers := true } source df = .ok (weightsText (.range (some 1) (some 1)) res) := by
  have hwf : (filterStart args.start df).hasWeight = false := by rw [filterStart_rows]; exact hw
  have happ : applyOutliers true (filterStart args.start df) = .ok (withOnes (filterStart args.start df)) := by
    unfold applyOutliers
    rw [if_pos rfl, hm]
    simp only [bind, Except.bind]
    rw [outlier_idle _ _ _ (C39_length _ _ _ _ hm).2 hs, if_neg (by simp [hwf])]
    rfl
  have key := runSingle_text w args { args with findOutliers := true } source df df (filterStart args.start df) (withOnes (filterStart args.start df)) rfl rfl
    (by rw [hout]; rfl) happ (ones_weights _ hwf) res h hn
  rw [key, ones_range _ (run_nonempty w args source df hout res h)]

/-- **C90.** A series that never falls, with different dates, is not affected by the search for outliers. -/
theorem C90_rising [FloorRing K] [IsStrictOrderedRing K] (w : World K) (args : RunArgs K) (source : String) (df : Frame K) (hw : df.hasWeight = false)
    (hout : args.findOutliers = false) (hu : ((filterStart args.start df).rows.map (axis (filterStart args.start df))).Nodup)
    (hm : NeverFalls (filterStart args.start df)) (res : RunResult K) (h : runSingle w args source df = .ok res)
    (hn : ∀ b ∈ res.metadata, b.model ≠ "actuals") :
    runSingle w { args with findOutliers := true } source df = .ok (weightsText (.range (some 1) (some 1)) res) := by
  obtain ⟨m, hmm⟩ := (C39_defined (filterStart args.start df) 3).2 hu
  exact C90_search w args source df hw hout m.1 m.2 hmm (C39_monotone _ hm 3 _ _ hmm) res h hn

/-! ### Tables -/

/-- The row with the weight one. -/
def oneS (r : SRow K) : SRow K := { r with weight := some 1 }

omit [LinearOrder K] in
theorem withX_ones (t : STable K) (part : List (SRow K)) : withX (tableOnes t) (part.map oneS) = (withX t part).map (List.map oneS) := by
  have ha : ∀ (p : List (SRow K)) (xs : List Int), assignX (p.map oneS) xs = (assignX p xs).map oneS := by
    intro p xs
    unfold assignX
    rw [List.zipWith_map_left, List.map_zipWith]
    rfl
  unfold withX
  have h1 : (tableOnes t).hasX = t.hasX := rfl
  have h2 : (tableOnes t).hasDate = t.hasDate := rfl
  rw [h1, h2]
  by_cases hx : t.hasX = true
  · rw [if_pos hx, if_pos hx]; rfl
  rw [if_neg hx, if_neg hx]
  by_cases hd : t.hasDate = true
  · rw [if_pos hd, if_pos hd]
    cases part with
    | nil => rfl
    | cons r part =>
      have hm : ((r :: part).map oneS).map SRow.date = (r :: part).map SRow.date := by rw [List.map_map]; rfl
      have := ha (r :: part) (normalizedX ((r :: part).map SRow.date))
      rw [← hm] at this
      simp only [Except.map, ← hm] at this ⊢
      exact congrArg Except.ok this
  · rw [if_neg hd, if_neg hd, List.length_map, ha]
    rfl

omit [LinearOrder K] in
theorem sourcePart_ones (rows : List (SRow K)) (s : Option String) : sourcePart (rows.map oneS) s = (sourcePart rows s).map oneS := by
  unfold sourcePart
  rw [List.filter_map]
  rfl

omit [LinearOrder K] in
theorem collect_ones (t : STable K) (l : List (Option String)) : collectSources (tableOnes t) l = (collectSources t l).map (List.map oneS) := by
  induction l with
  | nil => rfl
  | cons s l ih =>
    simp only [collectSources, bind, Except.bind]
    have : sourcePart (tableOnes t).rows s = (sourcePart t.rows s).map oneS := sourcePart_ones _ _
    rw [this, withX_ones, ih]
    cases withX t (sourcePart t.rows s) with
    | error e => rfl
    | ok p =>
      cases collectSources t l with
      | error e => rfl
      | ok q => simp [Except.map]

omit [LinearOrder K] in
theorem normalize_ones (srt : SortAlg) (t : STable K) : normalizeDf srt (tableOnes t) = (normalizeDf srt t).map (Option.map tableOnes) := by
  have hsrc : (tableOnes t).rows.map SRow.source = t.rows.map SRow.source := by
    simp only [tableOnes, List.map_map]
    rfl
  have hnil : (tableOnes t).rows = [] ↔ t.rows = [] := by simp [tableOnes]
  have hs : (tableOnes t).hasSource = t.hasSource := rfl
  unfold normalizeDf
  simp only [hnil, hs, hsrc]
  by_cases h0 : t.rows = []
  · rw [if_pos h0, if_pos h0]; rfl
  rw [if_neg h0, if_neg h0]
  by_cases h1 : t.hasSource = true
  · rw [if_pos h1, if_pos h1, collect_ones]
    cases collectSources t (dedupBy (fun s : Option String => s) (t.rows.map SRow.source)) with
    | error e => rfl
    | ok rows =>
      simp only [Except.map, bind, Except.bind, Option.map_some, tableOnes]
      have : sortBy sourceXLe (rows.map oneS) = (sortBy sourceXLe rows).map oneS :=
        stableSort.natural sourceXLe sourceXLe oneS rows (fun _ _ _ _ => rfl)
      rw [this]
      rfl
  · rw [if_neg h1, if_neg h1]
    have : withX (tableOnes t) (tableOnes t).rows = (withX t t.rows).map (List.map oneS) := withX_ones t t.rows
    rw [this]
    cases withX t t.rows with
    | error e => rfl
    | ok rows =>
      simp only [Except.map, bind, Except.bind, Option.map_some, tableOnes]
      rw [srt.natural (fun a b : SRow K => decide (a.x ≤ b.x)) (fun a b : SRow K => decide (a.x ≤ b.x)) oneS rows (fun _ _ _ _ => rfl)]
      rfl

omit [LinearOrder K] in
theorem frame_ones (t : STable K) (rows : List (SRow K)) : frameOf (tableOnes t) (rows.map oneS) = withOnes (frameOf t rows) := by
  unfold frameOf withOnes
  simp only [List.map_map]
  rfl

theorem normalize_hasWeight (srt : SortAlg) (t t' : STable K) (h : normalizeDf srt t = .ok (some t')) : t'.hasWeight = t.hasWeight := by
  unfold normalizeDf at h
  by_cases h0 : t.rows = []
  · rw [if_pos h0] at h; cases h
  rw [if_neg h0] at h
  by_cases h1 : t.hasSource = true
  · rw [if_pos h1] at h
    cases hc : collectSources t (dedupBy (fun s : Option String => s) (t.rows.map SRow.source)) with
    | error e => rw [hc] at h; cases h
    | ok rows => rw [hc] at h; cases h; rfl
  · rw [if_neg h1] at h
    cases hc : withX t t.rows with
    | error e => rw [hc] at h; cases h
    | ok rows => rw [hc] at h; cases h; rfl

theorem sources_ones [FloorRing K] [IsStrictOrderedRing K] (w : World K) (args : RunArgs K) (t : STable K) (hw : t.hasWeight = false)
    (hout : args.findOutliers = false) (l : List (Option String)) (res : RunResult K) (h : runSources w args t l = .ok res)
    (hn : ∀ b ∈ res.metadata, b.model ≠ "actuals") : runSources w args (tableOnes t) l = .ok (weightsText (.range (some 1) (some 1)) res) := by
  induction l generalizing res with
  | nil => cases h; rfl
  | cons s l ih =>
    simp only [runSources, bind, Except.bind] at h ⊢
    cases h1 : runSingle w args (s.getD "") (frameOf t (sourcePart t.rows s)) with
    | error e => rw [h1] at h; cases h
    | ok r =>
      rw [h1] at h
      cases h2 : runSources w args t l with
      | error e => rw [h2] at h; cases h
      | ok r' =>
        rw [h2] at h
        cases h
        have hp : frameOf (tableOnes t) (sourcePart (tableOnes t).rows s) = withOnes (frameOf t (sourcePart t.rows s)) := by
          rw [← frame_ones, ← sourcePart_ones]
          rfl
        rw [hp, C90_ones w args _ _ hw hout r h1 (fun b hb => hn b (List.mem_append_left _ hb)), ih r' h2 (fun b hb => hn b (List.mem_append_right _ hb))]
        simp [RunResult.append, weightsText]

/-- **C90.** The same for a table with any number of sources. -/
theorem C90_table [FloorRing K] [IsStrictOrderedRing K] (w : World K) (args : RunArgs K) (sourceId : String) (t : STable K) (hw : t.hasWeight = false)
    (hout : args.findOutliers = false) (res : RunResult K) (h : runForecast w args sourceId t = .ok (some res))
    (hn : ∀ b ∈ res.metadata, b.model ≠ "actuals") :
    runForecast w args sourceId (tableOnes t) = .ok (some (weightsText (.range (some 1) (some 1)) res)) := by
  unfold runForecast at h ⊢
  rw [normalize_ones]
  cases hnf : normalizeDf w.srt t with
  | error e => rw [hnf] at h; cases h
  | ok o =>
    rw [hnf] at h
    cases o with
    | none => cases h
    | some t' =>
      have hw' := (normalize_hasWeight _ _ _ hnf).trans hw
      simp only [Except.map, bind, Except.bind, Option.map_some] at h ⊢
      have hsrc : (tableOnes t').rows.map SRow.source = t'.rows.map SRow.source := by
        simp only [tableOnes, List.map_map]
        rfl
      have hnil : (tableOnes t').rows = [] ↔ t'.rows = [] := by simp [tableOnes]
      have hs : (tableOnes t').hasSource = t'.hasSource := rfl
      simp only [hnil, hs, hsrc]
      by_cases h1 : t'.hasSource = true
      · rw [if_pos h1] at h ⊢
        by_cases h2 : t'.rows = []
        · rw [if_pos h2] at h; cases h
        rw [if_neg h2] at h ⊢
        cases h3 : runSources w args t' (dedupBy (fun s : Option String => s) (t'.rows.map SRow.source)) with
        | error e => rw [h3] at h; cases h
        | ok r =>
          rw [h3] at h
          cases h
          rw [sources_ones w args t' hw' hout _ res h3 hn]
      · rw [if_neg h1] at h ⊢
        cases h3 : runSingle w args sourceId (frameOf t' t'.rows) with
        | error e => rw [h3] at h; cases h
        | ok r =>
          rw [h3] at h
          cases h
          have hp : frameOf (tableOnes t') (tableOnes t').rows = withOnes (frameOf t' t'.rows) := frame_ones t' t'.rows
          rw [hp, C90_ones w args _ _ hw' hout res h3 hn]

/-- **C90.** With the search for outliers, tables with any number of sources. -/
theorem C90_table_search [FloorRing K] [IsStrictOrderedRing K] (w : World K) (args : RunArgs K) (sourceId : String) (t : STable K)
    (hw : t.hasWeight = false) (hout : args.findOutliers = true) : runForecast w args sourceId (tableOnes t) = runForecast w args sourceId t := by
  unfold runForecast
  rw [normalize_ones]
  cases hnf : normalizeDf w.srt t with
  | error e => rfl
  | ok o =>
    cases o with
    | none => rfl
    | some t' =>
      have hw' := (normalize_hasWeight _ _ _ hnf).trans hw
      simp only [Except.map, bind, Except.bind, Option.map_some]
      have hsrc : (tableOnes t').rows.map SRow.source = t'.rows.map SRow.source := by
        simp only [tableOnes, List.map_map]
        rfl
      have hnil : (tableOnes t').rows = [] ↔ t'.rows = [] := by simp [tableOnes]
      have hs : (tableOnes t').hasSource = t'.hasSource := rfl
      have hp : frameOf (tableOnes t') (tableOnes t').rows = withOnes (frameOf t' t'.rows) := frame_ones t' t'.rows
      have hl : ∀ l, runSources w args (tableOnes t') l = runSources w args t' l := by
        intro l
        induction l with
        | nil => rfl
        | cons s l ih =>
          have hps : frameOf (tableOnes t') (sourcePart (tableOnes t').rows s) = withOnes (frameOf t' (sourcePart t'.rows s)) := by
            rw [← frame_ones, ← sourcePart_ones]
            rfl
          simp only [runSources, hps, ih]
          rw [C90_ones_search w args _ (frameOf t' (sourcePart t'.rows s)) hw' hout]
      simp only [hnil, hs, hsrc, hl, hp]
      rw [C90_ones_search w args _ (frameOf t' t'.rows) hw' hout]

/-! ### Examples -/

/-- Six days with a spike on the fourth. -/
def spikeFrame : Frame ℚ := ⟨true, false, [⟨0, 0, some 1, none⟩, ⟨DAY, 1, some 3, none⟩, ⟨2 * DAY, 2, some 4, none⟩, ⟨3 * DAY, 3, some 70, none⟩,
  ⟨4 * DAY, 4, some 9, none⟩, ⟨5 * DAY, 5, some 11, none⟩]⟩

def demoSearch (find : Bool) (df : Frame ℚ) : Option (RunResult ℚ) :=
  (runSingle demoWorld { demoArgs [modelLinear, modelConstant] (some []) with findOutliers := find } "s" df).toOption

/-- The run of `demoFrame` succeeds without and with the search, which finds nothing; the texts differ, the reported values do not. -/
example : ((demoSearch false demoFrame).map fun r => (r.metadata.map MRow.weights, r.metadata.map MRow.model)) =
      some ([.one, .one], ["constant", "linear"]) ∧
    demoSearch true demoFrame = (demoSearch false demoFrame).map (weightsText (.range (some 1) (some 1))) ∧
    demoSearch false (withOnes demoFrame) = (demoSearch false demoFrame).map (weightsText (.range (some 1) (some 1))) ∧
    demoSearch true (withOnes demoFrame) = demoSearch true demoFrame ∧
    ((getModelOutliers demoFrame 3).toOption.map Prod.snd) = some [false, false, false, false, false, false] := by decide +kernel

/-- A spike is found: the search does change the result. -/
example : ((getModelOutliers spikeFrame 3).toOption.map Prod.snd) = some [false, false, false, true, false, false] ∧
    demoSearch true spikeFrame ≠ (demoSearch false spikeFrame).map (weightsText (.range (some 1) (some 1))) := by decide +kernel

/-- Two sources. -/
example : demoTable.hasWeight = false ∧ ((runForecast demoWorld (demoArgs [modelLinear, modelConstant] (some [])) "" (tableOnes demoTable)).toOption.map
      fun o => o.map fun r => (r.metadata.map fun q => (q.source, q.model, q.weights))) =
    some (some [("a", "constant", .range (some 1) (some 1)), ("a", "linear", .range (some 1) (some 1)), ("b", "constant", .range (some 1) (some 1)),
      ("b", "linear", .range (some 1) (some 1))]) := by decide +kernel

end Anticipy
