import Verif.Props.RunExamples
import Verif.Props.Candidates
import Verif.Props.UnitModels
import Mathlib.Tactic.Positivity

/-
C68: a run with values in another unit chooses the same model.
-/
namespace Anticipy
open Spec
variable {K : Type} [Field K] [LinearOrder K]

/-! ### The stages of a run in another unit -/

omit [LinearOrder K] in
theorem filterStart_inUnit (c : K) (s : Option Timestamp) (df : Frame K) : filterStart s (inUnit c df) = inUnit c (filterStart s df) := by
  obtain ⟨hd, hw, rows⟩ := df
  cases s with
  | none => rfl
  | some d =>
    cases hd with
    | false => rfl
    | true =>
      simp only [filterStart, inUnit, if_true, List.filter_map]
      rfl

theorem applyOutliers_inUnit [FloorRing K] [IsStrictOrderedRing K] (c : K) (hc : c ≠ 0) (find : Bool) (df : Frame K) :
    applyOutliers find (inUnit c df) = (applyOutliers find df).map (inUnit c) := by
  have h : rescaled c 0 df = inUnit c df := by simp [rescaled, inUnit, sampleInUnit]
  unfold applyOutliers
  cases find with
  | false => rfl
  | true =>
    simp only [if_true, bind, Except.bind]
    rw [← h, C39_affine c 0 hc, h]
    cases getModelOutliers df 3 with
    | error e => rfl
    | ok masks =>
      simp only [Except.map, inUnit, List.zipWith_map_left, List.map_zipWith]
      rfl

theorem defaultWeights_inUnit (c : K) (df : Frame K) :
    defaultWeights (inUnit c df) = (inUnit c (defaultWeights df).1, (defaultWeights df).2) := by
  obtain ⟨hd, hw, rows⟩ := df
  cases hw with
  | false =>
    simp only [defaultWeights, inUnit, Bool.false_eq_true, if_false, List.map_map]
    rfl
  | true =>
    simp only [defaultWeights, inUnit, if_true, List.filterMap_map]
    rfl

theorem usedRows_inUnit (c : K) (df : Frame K) : usedRows (inUnit c df) = inUnit c (usedRows df) := by
  simp only [usedRows, inUnit, List.filter_map]
  rfl

theorem weightedDates_inUnit (c : K) (df : Frame K) : weightedDates (inUnit c df) = weightedDates df := by
  obtain ⟨hd, hw, rows⟩ := df
  cases hw <;> simp only [weightedDates, inUnit, if_true, Bool.false_eq_true, if_false, List.filter_map, List.map_map] <;> rfl

theorem composedModels_inUnit (ch : Choices K) (args : ModelArgs K) (c : K) (df : Frame K) (mult : Bool) :
    composedModels ch args (inUnit c df) mult = composedModels ch args df mult := by
  have h1 : useRamp (inUnit c df) = useRamp df := by
    unfold useRamp
    rw [weightedDates_inUnit]
    rfl
  have h2 : useCalendar (inUnit c df) = useCalendar df := by
    unfold useCalendar
    rw [weightedDates_inUnit]
    rfl
  have h3 : (inUnit c df).hasDate = df.hasDate := rfl
  unfold composedModels
  rw [h1, h2, h3, weightedDates_inUnit]

theorem isMultiplicative_inUnit [IsStrictOrderedRing K] (corr : Frame K → Res (Option K)) (c : K) (hc : 0 < c) (hcorr : ∀ df, corr (inUnit c df) = corr df)
    (df : Frame K) : isMultiplicative corr (inUnit c df) = isMultiplicative corr df := by
  have h1 : (inUnit c df).rows.any (fun r => decide (∃ v ∈ r.y, v ≤ 0)) = df.rows.any (fun r => decide (∃ v ∈ r.y, v ≤ 0)) := by
    simp only [inUnit, List.any_map]
    congr 1
    funext r
    simp only [Function.comp, sampleInUnit]
    congr 1
    cases r.y with
    | none => simp
    | some v =>
      simp only [Option.map_some, Option.mem_def, Option.some.injEq, exists_eq_left']
      rw [eq_iff_iff, ← not_lt, ← not_lt, mul_pos_iff_of_pos_left hc]
  have h2 : (inUnit c df).rows.map Row.date = df.rows.map Row.date := by simp only [inUnit, List.map_map]; rfl
  have h3 : ((inUnit c df).rows.filter fun r => r.y.isSome && (!(inUnit c df).hasWeight || decide (∃ w ∈ r.weight, 0 < w))).length =
      (df.rows.filter fun r => r.y.isSome && (!df.hasWeight || decide (∃ w ∈ r.weight, 0 < w))).length := by
    simp only [inUnit, List.filter_map, List.length_map]
    congr 2
    funext r
    obtain ⟨d, x, y, w⟩ := r
    cases y <;> rfl
  unfold isMultiplicative
  rw [h1, h2, h3, hcorr]
  rfl

theorem candidates_inUnit [IsStrictOrderedRing K] (ch : Choices K) (args : ModelArgs K) (c : K) (hc : 0 < c)
    (hcorr : ∀ df, ch.corr (inUnit c df) = ch.corr df) (df : Frame K) (freq : Option Freq) :
    candidates ch args (inUnit c df) freq = candidates ch args df freq := by
  have hm : resolveMode ch args (inUnit c df) = resolveMode ch args df := by
    unfold resolveMode
    rw [isMultiplicative_inUnit _ c hc hcorr]
  unfold candidates
  rw [hm, composedModels_inUnit, composedModels_inUnit]

omit [LinearOrder K] in
theorem runFreq_inUnit (c : K) (df : Frame K) : runFreq (inUnit c df) = runFreq df := by
  have h2 : (inUnit c df).rows.map Row.date = df.rows.map Row.date := by simp only [inUnit, List.map_map]; rfl
  unfold runFreq
  rw [h2]
  rfl

omit [LinearOrder K] in
theorem interpolateDf_inUnit (c : K) (df : Frame K) : interpolateDf (inUnit c df) = (interpolateDf df).map (inUnit c) := by
  obtain ⟨hd, hw, rows⟩ := df
  have h1 : (rows.map (sampleInUnit c)).map Row.date = rows.map Row.date := by rw [List.map_map]; rfl
  have h2 : (rows.map (sampleInUnit c)).map Row.x = rows.map Row.x := by rw [List.map_map]; rfl
  have hf : ∀ t, findRow (rows.map (sampleInUnit c)) t = (findRow rows t).map (sampleInUnit c) := by
    intro t
    unfold findRow
    rw [List.find?_map]
    rfl
  cases hd with
  | true =>
    unfold interpolateDf
    simp only [inUnit, if_true, h1]
    by_cases hb : nuniqueDiff (dedupBy (fun t : Timestamp => t) (rows.map Row.date)) ≤ 1 ∧
        sparseDaily (detectFreq (rows.map Row.date)) (diffs (dedupBy (fun t : Timestamp => t) (rows.map Row.date))) = false
    · rw [if_pos hb, if_pos hb]; rfl
    rw [if_neg hb, if_neg hb]
    by_cases hdup : hasDup (rows.map Row.date) = true
    · rw [if_pos hdup, if_pos hdup]; rfl
    rw [if_neg hdup, if_neg hdup]
    cases listMin (rows.map Row.date) with
    | none => rfl
    | some a =>
      cases listMax (rows.map Row.date) with
      | none => rfl
      | some b =>
        dsimp only
        simp only [hf, List.map_map, Function.comp_def, Option.map_map]
        have e1 : (fun r : Row K => (((sampleInUnit c r).x : Int) : ℚ)) = fun r : Row K => ((r.x : Int) : ℚ) := rfl
        simp only [e1]
        generalize toIntCol _ = ti
        cases ti with
        | error e => rfl
        | ok xs =>
          simp only [Except.map, inUnit, List.map_zipWith, List.zipWith_map_left]
          congr 2
          congr 1
          funext t x
          cases findRow rows t with
          | none => rfl
          | some r => rfl
  | false =>
    unfold interpolateDf
    simp only [inUnit, Bool.false_eq_true, if_false, h2]
    by_cases hb : nuniqueDiff (dedupBy (fun t : Int => t) (rows.map Row.x)) ≤ 1
    · rw [if_pos hb, if_pos hb]; rfl
    rw [if_neg hb, if_neg hb]
    by_cases hdup : hasDup (rows.map Row.x) = true
    · rw [if_pos hdup, if_pos hdup]; rfl
    rw [if_neg hdup, if_neg hdup]
    cases listMin (rows.map Row.x) with
    | none => rfl
    | some a =>
      cases listMax (rows.map Row.x) with
      | none => rfl
      | some b =>
        dsimp only
        simp only [Except.map, inUnit, List.map_map]
        congr 2
        apply List.map_congr_left
        intro i _
        simp only [Function.comp]
        rw [List.find?_map]
        have : ((fun r : Row K => decide (r.x = a + (i : Int))) ∘ sampleInUnit c) = fun r : Row K => decide (r.x = a + (i : Int)) := rfl
        rw [this]
        cases rows.find? (fun r => decide (r.x = a + (i : Int))) with
        | none => rfl
        | some r => rfl

theorem actuals_inUnit (srt : SortAlg) (c : K) (df used : Frame K) :
    actualsInterpolated srt (inUnit c df) (inUnit c used) = (actualsInterpolated srt df used).map (inUnit c) := by
  unfold actualsInterpolated
  rw [interpolateDf_inUnit]
  cases interpolateDf df with
  | error e => rfl
  | ok d =>
    simp only [Except.map, bind, Except.bind, inUnit]
    rw [srt.natural (fun a b : Row K => decide (a.x ≤ b.x)) (fun a b : Row K => decide (a.x ≤ b.x)) (sampleInUnit c) _ (fun _ _ _ _ => rfl)]
    congr 2
    rw [List.flatMap_map, List.map_flatMap]
    congr 1
    funext r
    unfold mergeWeight
    rw [List.filter_map]
    have : ((fun u : Row K => decide (u.x = (sampleInUnit c r).x)) ∘ sampleInUnit c) = fun u : Row K => decide (u.x = r.x) := rfl
    rw [this]
    cases used.rows.filter fun u => decide (u.x = r.x) with
    | nil => rfl
    | cons u l =>
      dsimp only
      rw [List.map_cons]
      dsimp only
      rw [← List.map_cons (f := sampleInUnit c), List.map_map, List.map_map]
      apply List.map_congr_left
      intro q _
      simp only [Function.comp]
      have e : (sampleInUnit c q).weight = q.weight := rfl
      rw [e]
      by_cases hq : 0 < q.weight.getD 0
      · rw [if_pos hq, if_pos hq]; rfl
      · rw [if_neg hq, if_neg hq]; rfl

/-! ### The choice -/

/-- The comparison of scores of models fitted to the same samples does not change with the unit. -/
def Spec.UnitFreeScore (c : K) (aic : Option K → Nat → Nat → Res (Ext K)) : Prop :=
  ∀ e e' n k k' a a' b b', 0 < e → 0 < e' → aic (some e) n k = .ok a → aic (some e') n k' = .ok a' → aic (some (c ^ 2 * e)) n k = .ok b →
    aic (some (c ^ 2 * e')) n k' = .ok b' → Ext.lt a a' = true → Ext.lt b b' = true

omit [Field K] [LinearOrder K] in
/-- **C68, score.** The corrected information criterion is shifted by the same amount for all models. -/
theorem C68_score (c e : ℝ) (n k : Nat) (a : Ext ℝ) (hc : 0 < c) (he : 0 < e) (h : getAicC (some e) n k = .ok a) :
    ∃ v, a = .fin v ∧ getAicC (some (c ^ 2 * e)) n k = .ok (.fin (v + n * Real.log (c ^ 2))) := by
  unfold getAicC at h ⊢
  by_cases hn : n ≤ k + 1 ∨ n = 0
  · rw [if_pos hn] at h; cases h
  rw [if_neg hn] at h ⊢
  have hc2 : 0 < c ^ 2 := by positivity
  dsimp only at h ⊢
  rw [if_neg he.ne', if_neg (not_lt.2 he.le)] at h
  rw [if_neg (mul_pos hc2 he).ne', if_neg (not_lt.2 (mul_pos hc2 he).le)]
  cases h
  refine ⟨_, rfl, ?_⟩
  have hn0 : (n : ℝ) ≠ 0 := by
    have : n ≠ 0 := fun h => hn (.inr h)
    exact_mod_cast this
  have : c ^ 2 * e / n = c ^ 2 * (e / n) := by ring
  unfold aicFormula
  rw [this, Real.log_mul hc2.ne' (div_ne_zero he.ne' hn0)]
  congr 2
  ring

omit [Field K] [LinearOrder K] in
theorem aicC_unitFree (c : ℝ) (hc : 0 < c) : UnitFreeScore c getAicC := by
  intro e e' n k k' a a' b b' he he' h1 h2 h3 h4 hlt
  obtain ⟨v, rfl, g1⟩ := C68_score c e n k a hc he h1
  obtain ⟨v', rfl, g2⟩ := C68_score c e' n k' a' hc he' h2
  rw [g1] at h3
  rw [g2] at h4
  cases h3
  cases h4
  simp only [Ext.lt, decide_eq_true_eq] at hlt ⊢
  linarith

/-- The score of a fitted model. -/
theorem fitModel_score (env : Env K) (m : ForecastModel K) (df : Frame K) (actuals : Option (Frame K)) (c : Bool) (f : FitResult K)
    (hu : Unpinned m) (h : fitModel env m df actuals c = .ok f) (hf : f.isFit = true) :
    env.aic f.cost (usableRows df).length m.nParams = .ok f.aic := by
  by_cases hn : m.nParams = 0
  · obtain ⟨-, -, -, h3⟩ := fitModel_noparams env m df actuals c f hu hn h hf
    exact h3
  · obtain ⟨-, -, -, -, -, -, -, -, -, -, -, -, -, -, -, -, h3⟩ := fitModel_solver env m df actuals c f hu hn h hf
    exact h3

/-- **C68.** Values in another unit: the same model is chosen. All solvers find the minimum; the score and the test for multiplicative composition do not
depend on the unit (see `aicC_unitFree`, `C64_unit`); each candidate can describe data in any unit (see the theorems of the previous file). The fits of
both runs succeed for the same models, no model fits perfectly, and the chosen model is strictly better than all others. -/
theorem C68_choice [FloorRing K] [IsStrictOrderedRing K] (w w' : World K) (hw : w'.ch = w.ch ∧ w'.srt = w.srt) (args : RunArgs K) (source : String)
    (df : Frame K) (c : K) (hc : 0 < c)
    (res res' : RunResult K) (hall : args.includeAll = true) (h : runSingle w args source df = .ok res)
    (h' : runSingle w' args source (inUnit c df) = .ok res')
    (hmin : ∀ i, FindsMinimum (w.env source i)) (hmin' : ∀ i, FindsMinimum (w'.env source i))
    (hcache : ∀ i, (w'.env source i).globalCache = (w.env source i).globalCache)
    (score : Option K → Nat → Nat → Res (Ext K)) (hscore : UnitFreeScore c score) (haic : ∀ i, (w.env source i).aic = score)
    (haic' : ∀ i, (w'.env source i).aic = score)
    (hcorr : ∀ df, w.ch.corr (inUnit c df) = w.ch.corr df)
    (hmod : ∀ df' cand, candidates w.ch args.models df' (runFreq df) = .ok cand → ∀ m ∈ cand.2, Unpinned m ∧ UnitFree false m)
    (hsame : res'.metadata.map MRow.isFit = res.metadata.map MRow.isFit)
    (hpos : ∀ r ∈ res.metadata, ∀ e, r.cost = some e → 0 < e) (b : MRow K) (hb : b ∈ res.metadata) (hbf : b.isFit = true)
    (hstrict : ∀ q ∈ res.metadata, q.isFit = true → q.model ≠ b.model → Ext.lt b.aic q.aic = true) :
    (∀ q ∈ res'.metadata, q.isBest = true → q.model = b.model) ∧ ∃ q ∈ res'.metadata, q.isBest = true ∧ q.model = b.model := by
  have hfit' : ∃ r ∈ res'.metadata, r.isFit = true := by
    have : true ∈ res.metadata.map MRow.isFit := List.mem_map.2 ⟨b, hb, hbf⟩
    rw [← hsame] at this
    obtain ⟨r, hr, e⟩ := List.mem_map.1 this
    exact ⟨r, hr, e⟩
  obtain ⟨q, hq, hq1, hq2, hq3⟩ := C35_lowest w' args source _ res' hall h' hfit'
  -- the rows of both tables correspond
  obtain ⟨d, hd, -, hmeta, -⟩ := runSingle_inv w args source df res h
  obtain ⟨d', hd', -, hmeta', -⟩ := runSingle_inv w' args source _ res' h'
  obtain ⟨st⟩ := runFits_stages w args source df d hd
  obtain ⟨st'⟩ := runFits_stages w' args source _ d' hd'
  have hd2 : d.2 = _ := congrArg Prod.snd st.hd
  have hd2' : d'.2 = _ := congrArg Prod.snd st'.hd
  unfold selectFits at hmeta hmeta'
  rw [if_pos hall, hd2] at hmeta
  rw [if_pos hall, hd2'] at hmeta'
  have hOut' := st'.hOut
  rw [filterStart_inUnit, applyOutliers_inUnit c hc.ne', st.hOut] at hOut'
  have hdf2 : inUnit c st.df2 = st'.df2 := Except.ok.inj hOut'
  have hCand' := st'.hCand
  have hAct' := st'.hAct
  have hFits' := st'.hFits
  rw [← hdf2, defaultWeights_inUnit] at hCand' hAct' hFits'
  dsimp only at hCand' hAct' hFits'
  rw [hw.1, runFreq_inUnit, candidates_inUnit w.ch args.models c hc hcorr, st.hCand] at hCand'
  have hcand : st.cand = st'.cand := Except.ok.inj hCand'
  rw [hw.2, usedRows_inUnit, actuals_inUnit, st.hAct] at hAct'
  have hact : inUnit c st.actuals = st'.actuals := Except.ok.inj hAct'
  rw [← hcand, ← hact] at hFits'
  obtain ⟨len, spec, -⟩ := fitLoop_spec _ _ _ _ _ st.hFits
  obtain ⟨len', spec', -⟩ := fitLoop_spec _ _ _ _ _ hFits'
  have row : ∀ (k : Nat) (m : ForecastModel K), st.cand.2[k]? = some m → ∃ r r' : MRow K, res.metadata[k]? = some r ∧ res'.metadata[k]? = some r' ∧ r.model = m.name ∧
      r'.model = m.name ∧ r'.isFit = r.isFit ∧ (r.isFit = true → ∃ e, r.cost = some e ∧ r'.cost = some (c ^ 2 * e) ∧
        score (some e) (usableRows (usedRows (defaultWeights st.df2).1)).length m.nParams = .ok r.aic ∧
        score (some (c ^ 2 * e)) (usableRows (usedRows (defaultWeights st.df2).1)).length m.nParams = .ok r'.aic) := by
    intro k m hk
    obtain ⟨hu, hm⟩ := hmod _ _ st.hCand m (List.mem_of_getElem? hk)
    obtain ⟨f, rows, f1, -, f3, -⟩ := spec k m hk
    obtain ⟨f', rows', f1', -, f3', -⟩ := spec' k m hk
    simp only [mkSetup, usedRows_inUnit] at f1 f1'
    have m1 : res.metadata[k]? = some (flagMeta (bestKey w.srt st.fits.1) (metaRow (mkSetup w args source df (defaultWeights st.df2).1
        (defaultWeights st.df2).2 st.cand.1 st.actuals) m f)) := by
      rw [hmeta, List.getElem?_map, f3]; rfl
    have m1' : res'.metadata[k]? = some (flagMeta (bestKey w'.srt st'.fits.1) (metaRow (mkSetup w' args source (inUnit c df)
        (inUnit c (defaultWeights st.df2).1) (defaultWeights st.df2).2 st.cand.1 (inUnit c st.actuals)) m f')) := by
      rw [hmeta', List.getElem?_map, f3']; rfl
    have hfit : f'.isFit = f.isFit := by
      have e1 := congrArg (fun l : List Bool => l[k]?) hsame
      simp only [List.getElem?_map, m1, m1', Option.map_some, Option.some.injEq] at e1
      exact e1
    refine ⟨_, _, m1, m1', fit_unpinned _ _ _ _ _ _ hu f1, fit_unpinned _ _ _ _ _ _ hu f1', hfit, ?_⟩
    intro hf
    have hf : f.isFit = true := hf
    obtain ⟨e, c1, c2⟩ := C68_cost _ _ (hmin _) (hmin' _) (hcache _) m hu hm c hc _ (some st.actuals) _ f f' f1 f1' hf (hfit.trans hf)
    have s1 := fitModel_score _ m _ _ _ f hu f1 hf
    have s2 := fitModel_score _ m _ _ _ f' hu f1' (hfit.trans hf)
    rw [haic, c1] at s1
    rw [haic', c2, usableRows_inUnit, List.length_map] at s2
    exact ⟨e, c1, c2, s1, s2⟩
  have hlen : res.metadata.length = st.cand.2.length := by rw [hmeta, List.length_map, len]
  have hlen' : res'.metadata.length = st.cand.2.length := by rw [hmeta', List.length_map, len']
  obtain ⟨kb, hkb⟩ := List.mem_iff_getElem?.1 hb
  obtain ⟨kq, hkq⟩ := List.mem_iff_getElem?.1 hq
  have hkb' : kb < st.cand.2.length := by
    have := (List.getElem?_eq_some_iff.1 hkb).1
    omega
  have hkq' : kq < st.cand.2.length := by
    have := (List.getElem?_eq_some_iff.1 hkq).1
    omega
  obtain ⟨b0, b', t1, t2, t3, t4, t5, t6⟩ := row kb _ (List.getElem?_eq_getElem hkb')
  obtain ⟨q0, q', u1, u2, u3, u4, u5, u6⟩ := row kq _ (List.getElem?_eq_getElem hkq')
  rw [hkb] at t1
  rw [hkq] at u2
  cases t1
  cases u2
  have hmodel : q.model = b.model := by
    by_contra hne
    have hq0 : q0 ∈ res.metadata := List.mem_of_getElem? u1
    have hqf : q0.isFit = true := by rw [← u5]; exact hq2
    have hlt := hstrict q0 hq0 hqf (by rw [u3, ← u4]; exact hne)
    obtain ⟨e, v1, v2, v3, v4⟩ := t6 hbf
    obtain ⟨e', v1', v2', v3', v4'⟩ := u6 hqf
    have := hscore e e' _ _ _ _ _ _ _ (hpos b hb e v1) (hpos q0 hq0 e' v1') v3 v3' v4 v4' hlt
    exact hq3 b' (List.mem_of_getElem? t2) (by rw [t5]; exact hbf) (.inl this)
  refine ⟨?_, q, hq, hq1, hmodel⟩
  intro r hr hrb
  rw [← hmodel]
  exact (C35_one_model w' args source _ res' h' r q hr hq hrb hq1).1

/-! ### Candidates built from unit free components -/

omit [LinearOrder K] in
/-- A default list of bounds pins nothing. -/
theorem default_unpinned (m : ForecastModel K) (h : m.fBounds = fBoundsDefault m.nParams) : Unpinned m := by
  intro args b hb p hp v
  rw [h] at hb
  have hb := Except.ok.inj hb
  subst hb
  have := (List.of_mem_zip hp).1
  have := List.eq_of_mem_replicate this
  simp [this]

theorem unpinned_compose (mult : Bool) (m1 m2 : ForecastModel K) (h1 : Unpinned m1) (h2 : Unpinned m2)
    (hl : ∀ args b, m1.fBounds args = .ok b → b.lo.length = b.hi.length) : Unpinned (compose mult m1 m2) := by
  unfold compose
  split_ifs
  · exact h2
  · exact h1
  all_goals
    intro args b hb p hp v
    have hb : fConcatBounds m1 m2 args = .ok b := hb
    unfold fConcatBounds at hb
    cases e1 : m1.fBounds args with
    | error e => rw [e1] at hb; cases hb
    | ok b1 =>
      cases e2 : m2.fBounds args with
      | error e => rw [e1, e2] at hb; cases hb
      | ok b2 =>
        rw [e1, e2] at hb
        have hb := Except.ok.inj hb
        subst hb
        dsimp only at hp
        rw [List.zip_append (hl _ _ e1), List.mem_append] at hp
        rcases hp with hp | hp
        · exact h1 _ _ e1 p hp v
        · exact h2 _ _ e2 p hp v

/-- What `C68_choice` asks of a candidate. -/
def Spec.AnyUnit (m : ForecastModel K) : Prop := Unpinned m ∧ UnitFree false m

theorem anyUnit_null [IsStrictOrderedRing K] : AnyUnit (modelNull : ForecastModel K) := by
  refine ⟨default_unpinned _ rfl, unitFree_noparams _ _ rfl ?_⟩
  intro c ctx p p' a h
  have h := Except.ok.inj h
  subst h
  simp [modelNull, mkModel, arrInUnit]

theorem anyUnit_add [IsStrictOrderedRing K] (m1 m2 : ForecastModel K) (h1 : AnyUnit m1) (h2 : AnyUnit m2) : AnyUnit (compose false m1 m2) := by
  refine ⟨unpinned_compose false m1 m2 h1.1 h2.1 ?_, ?_⟩
  · intro args b hb
    obtain ⟨T, hT⟩ := h1.2 1 zero_lt_one
    have := hT.sized args b hb
    rw [this.1, this.2]
  · by_cases n1 : m1.name = "null"
    · rw [compose, if_pos n1]; exact h2.2
    by_cases n2 : m2.name = "null"
    · rw [compose, if_neg n1, if_pos n2]; exact h1.2
    exact unitFree_add false m1 m2 h1.2 h2.2 n1 n2

omit [LinearOrder K] in
/-- A property of all components that is preserved by addition holds for all sums. -/
theorem getListModel_all (P : ForecastModel K → Prop) (hadd : ∀ a b, P a → P b → P (compose false a b)) (t s : List (ForecastModel K))
    (ht : ∀ m ∈ t, P m) (hs : ∀ m ∈ s, P m) : ∀ m ∈ getListModel (some t) (some s) .add, P m := by
  intro m hm
  unfold getListModel at hm
  have hm := mem_dedupBy _ _ _ hm
  dsimp only [Option.getD_some] at hm
  by_cases h1 : s = []
  · rw [if_pos h1] at hm; exact ht m hm
  by_cases h2 : t = []
  · rw [if_neg h1, if_pos h2] at hm; exact hs m hm
  rw [if_neg h1, if_neg h2, mem_combinations] at hm
  obtain ⟨a, ha, b, hb, (⟨-, rfl⟩ | ⟨h, -⟩)⟩ := hm
  · exact hadd a b (ht a ha) (hs b hb)
  · exact absurd rfl h

/-- **C68, candidates.** With additive composition and given trends, all candidates can describe data in any unit if the trends, seasonalities, calendar
models and naive models can. -/
theorem C68_candidates [IsStrictOrderedRing K] (ch : Choices K) (args : ModelArgs K) (t : List (ForecastModel K)) (htrend : args.trend = some t) (hmode : args.mode = .add)
    (ht : ∀ m ∈ t, AnyUnit m) (hs : ∀ s, args.season = some s → ∀ m ∈ s, AnyUnit m) (hy : ∀ m ∈ offered args.yearly ch.dfltYearly, AnyUnit m)
    (hwk : ∀ m ∈ offered args.weekly ch.dfltWeekly, AnyUnit m) (hcal : ∀ s, args.calendar = some s → ∀ m ∈ s, AnyUnit m)
    (hn : ∀ m ∈ args.naive.getD [ch.snaive, ch.naive], AnyUnit m) (df : Frame K) (freq : Option Freq) (cand : AddMult × List (ForecastModel K))
    (h : candidates ch args df freq = .ok cand) : ∀ m ∈ cand.2, AnyUnit m := by
  unfold candidates resolveMode at h
  rw [hmode] at h
  have h := Except.ok.inj h
  subst h
  intro m hm
  dsimp only at hm
  rw [(sortBy_perm nameLe _).mem_iff, List.mem_append] at hm
  rcases hm with hm | hm
  · cases e : args.naive with
    | some l => rw [e] at hm hn; exact hn m hm
    | none =>
      rw [e] at hm hn
      apply hn
      dsimp only [Option.getD_none] at hm ⊢
      split_ifs at hm
      · rw [List.mem_singleton] at hm; simp [hm]
      · rw [List.mem_singleton] at hm; simp [hm]
  · unfold composedModels at hm
    rw [htrend] at hm
    dsimp only [Option.getD_some] at hm
    have hnone : ∀ l : List (ForecastModel K), getListModel (some l) none .add = getListModel (some l) (some []) .add := fun _ => rfl
    have inner : ∀ so : Option (List (ForecastModel K)), (∀ s, so = some s → ∀ m ∈ s, AnyUnit m) →
        ∀ m ∈ getListModel (some t) so .add, AnyUnit m := by
      intro so hso
      cases so with
      | none => rw [hnone]; exact getListModel_all _ anyUnit_add _ _ ht (by simp)
      | some s => exact getListModel_all _ anyUnit_add _ _ ht (hso s rfl)
    have hauto : ∀ m ∈ autoSeason (weightedDates df) (3 / 2) false args.yearly args.weekly ch.dfltYearly ch.dfltWeekly, AnyUnit m := by
      intro m hm
      rcases C42_enough_data _ _ _ _ _ _ _ m hm with rfl | ⟨w, y, rfl, h1, h2⟩
      · exact anyUnit_null
      · apply anyUnit_add
        · rcases h1 with rfl | h1
          · exact anyUnit_null
          · exact hwk w h1.1
        · rcases h2 with rfl | h2
          · exact anyUnit_null
          · exact hy y h2.1
    have hseason : ∀ m ∈ getListModel (some t) (match args.season with
        | some s => some s
        | none => if df.hasDate then
            some (autoSeason (weightedDates df) (3 / 2) false args.yearly args.weekly ch.dfltYearly ch.dfltWeekly) else none) .add, AnyUnit m := by
      apply inner
      intro s
      cases e : args.season with
      | some s' => intro h; cases h; exact hs _ e
      | none =>
        dsimp only
        by_cases hd : df.hasDate = true
        · rw [if_pos hd]; intro h; cases h; exact hauto
        · rw [if_neg hd]; intro h; cases h
    cases e : args.calendar with
    | none => rw [e] at hm; exact hseason m hm
    | some cal =>
      rw [e] at hm
      dsimp only at hm
      by_cases hu : useCalendar df = true
      · rw [if_pos hu] at hm
        exact getListModel_all _ anyUnit_add _ _ hseason (hcal _ e) m hm
      · rw [if_neg hu] at hm; exact hseason m hm

/-! ### A concrete case -/

/-- No optimizer; the score is the cost times the number of parameters plus one. -/
def toyEnv : Env ℚ := { demoEnv with
  lsq := fun _ _ _ => .ok none
  aic := fun c _ k => .ok (match c with | some v => .fin (v * ((k : ℚ) + 1)) | none => .nan) }

def toyWorld : World ℚ := { demoWorld with env := fun _ _ => toyEnv }

/-- Twelve days, not quite weekly. -/
def toyFrame : Frame ℚ := ⟨true, false, [⟨0, 0, some 1, none⟩, ⟨DAY, 1, some 3, none⟩, ⟨2 * DAY, 2, some 4, none⟩, ⟨3 * DAY, 3, some 7, none⟩,
  ⟨4 * DAY, 4, some 9, none⟩, ⟨5 * DAY, 5, some 11, none⟩, ⟨6 * DAY, 6, some 2, none⟩, ⟨7 * DAY, 7, some 2, none⟩, ⟨8 * DAY, 8, some 3, none⟩,
  ⟨9 * DAY, 9, some 5, none⟩, ⟨10 * DAY, 10, some 8, none⟩, ⟨11 * DAY, 11, some 9, none⟩]⟩

def toyArgs : RunArgs ℚ := demoArgs [] (some [modelNaive stableSort, modelSnaiveWday stableSort])

theorem toyScore (c : ℚ) (hc : 0 < c) : UnitFreeScore c toyEnv.aic := by
  intro e e' n k k' a a' b b' _ _ h1 h2 h3 h4 hlt
  have h1 := Except.ok.inj h1
  have h2 := Except.ok.inj h2
  have h3 := Except.ok.inj h3
  have h4 := Except.ok.inj h4
  subst h1 h2 h3 h4
  simp only [Ext.lt, decide_eq_true_eq] at hlt ⊢
  have : 0 < c ^ 2 := by positivity
  nlinarith

theorem toyCandidates (df' : Frame ℚ) (freq : Option Freq) (cand : AddMult × List (ForecastModel ℚ))
    (h : candidates toyWorld.ch toyArgs.models df' freq = .ok cand) : ∀ m ∈ cand.2, AnyUnit m := by
  refine C68_candidates _ _ [] rfl rfl (by simp) ?_ ?_ ?_ ?_ ?_ _ _ _ h
  · intro s hs; cases hs; simp
  · intro m hm
    have : m = modelNull := by simpa [offered, toyArgs, demoArgs, toyWorld, demoWorld] using hm
    rw [this]; exact anyUnit_null
  · intro m hm
    have : m = modelNull := by simpa [offered, toyArgs, demoArgs, toyWorld, demoWorld] using hm
    rw [this]; exact anyUnit_null
  · intro s hs; cases hs
  · intro m hm
    have : m = modelNaive stableSort ∨ m = modelSnaiveWday stableSort := by simpa [toyArgs, demoArgs] using hm
    rcases this with rfl | rfl
    · exact ⟨default_unpinned _ rfl, naive_unitFree _ _⟩
    · exact ⟨default_unpinned _ rfl, snaive_unitFree _ _⟩

/-- The hypotheses of `C68_choice` are met: the seasonal naive model is chosen, with the values in pounds or in pence. -/
example : ∃ res res', runSingle toyWorld toyArgs "s" toyFrame = .ok res ∧ runSingle toyWorld toyArgs "s" (inUnit 100 toyFrame) = .ok res' ∧
    ∃ b ∈ res.metadata, b.model = "snaive_wday" ∧ (∀ q ∈ res'.metadata, q.isBest = true → q.model = b.model) ∧
      ∃ q ∈ res'.metadata, q.isBest = true ∧ q.model = b.model := by
  have facts : (match runSingle toyWorld toyArgs "s" toyFrame, runSingle toyWorld toyArgs "s" (inUnit 100 toyFrame) with
      | .ok res, .ok res' => decide (res'.metadata.map MRow.isFit = res.metadata.map MRow.isFit ∧
          (∀ r ∈ res.metadata, ∀ e ∈ r.cost, 0 < e) ∧ ∃ b ∈ res.metadata, b.model = "snaive_wday" ∧ b.isFit = true ∧
            ∀ q ∈ res.metadata, q.isFit = true → q.model ≠ b.model → Ext.lt b.aic q.aic = true)
      | _, _ => false) = true := by decide +kernel
  cases h : runSingle toyWorld toyArgs "s" toyFrame with
  | error e => rw [h] at facts; cases facts
  | ok res =>
    cases h' : runSingle toyWorld toyArgs "s" (inUnit 100 toyFrame) with
    | error e => rw [h, h'] at facts; cases facts
    | ok res' =>
      rw [h, h'] at facts
      obtain ⟨f1, f2, b, f3, f4, f5, f6⟩ := of_decide_eq_true facts
      refine ⟨res, res', rfl, rfl, b, f3, f4, ?_⟩
      have hmin : ∀ i, FindsMinimum (toyWorld.env "s" i) := by
        intro i f guess bd r hr
        cases hr
      exact C68_choice toyWorld toyWorld ⟨rfl, rfl⟩ toyArgs "s" toyFrame 100 (by norm_num) res res' rfl h h' hmin hmin (fun _ => rfl) _
        (toyScore 100 (by norm_num)) (fun _ => rfl) (fun _ => rfl) (fun _ => rfl) (fun df' cand => toyCandidates df' _ cand) f1 f2 b f3 f5 f6

end Anticipy
