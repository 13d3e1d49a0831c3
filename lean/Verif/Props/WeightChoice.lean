import Verif.Props.Similar

/-
C76, all models: multiplying all weights by the same number does not change which model is chosen.
-/
namespace Anticipy
open Spec
variable {K : Type} [Field K] [LinearOrder K]

/-- A sample with its weight multiplied by `k`. -/
def sampleWeight (k : K) (r : Row K) : Row K := { r with weight := r.weight.map fun w => k * w }

omit [LinearOrder K] in
theorem reweighted_rows (k : K) (df : Frame K) : reweighted k df = { df with rows := df.rows.map (sampleWeight k) } := rfl

/-- Predictions do not look at the weights of the actuals. -/
def Spec.WeightFree (m : ForecastModel K) : Prop :=
  ∀ (k : K) (ctx : Ctx K) p mult, 0 < k → m.fModel { ctx with actuals := ctx.actuals.map (reweighted k) } p mult = m.fModel ctx p mult

/-! ### Residuals and costs -/

theorem bin_mul_weight (c : K) (a b r : Arr K) (h : Arr.bin (fun a b => a * b) a b = .ok r) :
    Arr.bin (fun a b => a * b) a (arrInUnit c b) = .ok (arrInUnit c r) := by
  have hl : ∀ u v : Option K, lift2 (fun a b => a * b) u (v.map fun a => c * a) = (lift2 (fun a b => a * b) u v).map fun a => c * a := by
    intro u v; cases u <;> cases v <;> simp [lift2, mul_left_comm]
  cases a with
  | scalar u =>
    cases b with
    | scalar v => cases h; simp [arrInUnit, Arr.bin, hl]
    | vec m => cases h; simp [arrInUnit, Arr.bin, hl]
  | vec l =>
    cases b with
    | scalar v => cases h; simp [arrInUnit, Arr.bin, hl]
    | vec m =>
      simp only [arrInUnit, Arr.bin, List.length_map] at h ⊢
      split_ifs at h ⊢ with hlen
      · cases h
        simp only [arrInUnit, List.zipWith_map_right, hl, List.map_zipWith]
      · match l, m with
        | [u], m =>
          dsimp only at h ⊢
          cases h
          simp [arrInUnit, hl]
        | [], [v] => cases h; simp [arrInUnit]
        | u :: u' :: l, [v] =>
          cases h
          simp [arrInUnit, hl]
        | [], [] => exact absurd rfl hlen
        | [], _ :: _ :: _ => cases h
        | _ :: _ :: _, [] => cases h
        | _ :: _ :: _, _ :: _ :: _ => cases h

theorem getResiduals_weight [IsStrictOrderedRing K] (k : K) (hk : 0 < k) (m : ForecastModel K) (hm : WeightFree m)
    (ctx : Ctx K) (ay w : List K) (p : Params K) (r : Arr K) (h : getResiduals m ctx ay (some w) p = .ok r) :
    getResiduals m { ctx with actuals := ctx.actuals.map (reweighted k) } ay (some (w.map fun v => k * v)) p = .ok (arrInUnit k r) := by
  unfold getResiduals at h ⊢
  rw [hm k ctx p false hk]
  simp only [bind, Except.bind] at h ⊢
  cases h1 : m.fModel ctx p false with
  | error e => rw [h1] at h; cases h
  | ok pred =>
    rw [h1] at h
    dsimp only at h ⊢
    cases h2 : Arr.bin (fun a b => a - b) (vecOf ay) pred with
    | error e => rw [h2] at h; cases h
    | ok d =>
      rw [h2] at h
      dsimp only at h ⊢
      have hy : (vecOf (w.map fun v => k * v) : Arr K) = arrInUnit k (vecOf w) := by simp [vecOf, arrInUnit]
      cases h3 : Arr.bin (fun a b => a * b) d (vecOf w) with
      | error e => rw [h3] at h; cases h
      | ok d' =>
        rw [h3] at h
        cases h
        rw [hy, bin_mul_weight k _ _ _ h3]
        dsimp only
        rw [abs_unit k hk]

theorem prepare_reweighted [IsStrictOrderedRing K] (k : K) (hk : 0 < k) (df : Frame K) (hw : df.hasWeight = true) :
    ∃ ws, (prepare df).ws = some ws ∧ prepare (reweighted k df) = { prepare df with ws := some (ws.map fun v => k * v) } := by
  have hg : usableRows (reweighted k df) = (usableRows df).map (sampleWeight k) := usableRows_reweighted k hk df
  have hx : ((usableRows df).map (sampleWeight k)).map Row.x = (usableRows df).map Row.x := by rw [List.map_map]; rfl
  have hmul : ∀ (l : List (Row K)) r, multiplicity (l.map (sampleWeight k)) (sampleWeight k r) = multiplicity l r := by
    intro l r
    unfold multiplicity
    rw [List.filter_map, List.length_map]
    rfl
  have hwt : ∀ r : Row K, (sampleWeight k r).weight.getD 0 = k * r.weight.getD 0 := by
    intro r
    cases h : r.weight <;> simp [sampleWeight, h]
  rw [prepare_eq, prepare_eq, hg]
  have h1 : (reweighted k df).hasWeight = true := hw
  have h2 : (reweighted k df).hasDate = df.hasDate := rfl
  rw [h1, h2, hw, hx]
  simp only [if_true, List.map_map, Function.comp_def, hmul, hwt]
  by_cases hdup : hasDup ((usableRows df).map Row.x) = true
  · rw [if_pos hdup, if_pos hdup]
    refine ⟨_, rfl, ?_⟩
    simp only [List.map_map, Function.comp_def, mul_div_assoc]
    rfl
  · rw [if_neg hdup, if_neg hdup]
    refine ⟨_, rfl, ?_⟩
    simp only [List.map_map, Function.comp_def]
    rfl

/-- **C76, costs.** With all weights multiplied by `k` the cost of a fitted model is multiplied by `k^2`, if the solver finds the minimum. -/
theorem C76_cost [IsStrictOrderedRing K] (env env' : Env K) (hmin : FindsMinimum env) (hmin' : FindsMinimum env')
    (hg : env'.globalCache = env.globalCache) (m : ForecastModel K) (hu : Unpinned m) (hm : WeightFree m) (k : K) (hk : 0 < k) (df : Frame K)
    (hw : df.hasWeight = true)
    (actuals : Option (Frame K)) (useCache : Bool) (f f' : FitResult K) (h : fitModel env m df actuals useCache = .ok f)
    (h' : fitModel env' m (reweighted k df) (actuals.map (reweighted k)) useCache = .ok f') (hf : f.isFit = true) (hf' : f'.isFit = true) :
    ∃ e, f.cost = some e ∧ f'.cost = some (k ^ 2 * e) := by
  have hk0 := hk.ne'
  have hrows : usableRows (reweighted k df) = (usableRows df).map (sampleWeight k) := usableRows_reweighted k hk df
  have hx : (usableRows (reweighted k df)).map Row.x = (usableRows df).map Row.x := by rw [hrows, List.map_map]; rfl
  obtain ⟨ws, hws, hprep⟩ := prepare_reweighted k hk df hw
  by_cases hn : m.nParams = 0
  · obtain ⟨res, h1, h2, -⟩ := fitModel_noparams env m df actuals useCache f hu hn h hf
    obtain ⟨res', h1', h2', -⟩ := fitModel_noparams env' m _ _ useCache f' hu hn h' hf'
    rw [hws] at h1
    have := getResiduals_weight k hk m hm _ _ _ _ _ h1
    rw [hprep, hx] at h1'
    dsimp only at this h1'
    rw [this] at h1'
    have h1' := Except.ok.inj h1'
    refine ⟨_, h2, ?_⟩
    rw [h2', ← h1', halfSumSq_unit]
  · obtain ⟨-, ctx, guess, b, r, h1, h2, h3, h4, h5, h6, -, h8, -, h9, h10, -⟩ := fitModel_solver env m df actuals useCache f hu hn h hf
    obtain ⟨-, ctx', guess', b', r', h1', h2', h3', h4', h5', h6', -, h8', -, h9', h10', -⟩ := fitModel_solver env' m _ _ useCache f' hu hn h' hf'
    have hdates : (if (reweighted k df).hasDate then some ((usableRows (reweighted k df)).map Row.date) else none) =
        (if df.hasDate then some ((usableRows df).map Row.date) else none) := by
      rw [hrows, List.map_map]; rfl
    rw [hx, ← h1] at h1'
    rw [hdates, ← h2] at h2'
    rw [← h3] at h3'
    rw [hg, h1', h2', h9] at h9'
    have h9' := Except.ok.inj h9'
    rw [hg, ← h10] at h10'
    have hctx : ctx' = { ctx with actuals := ctx.actuals.map (reweighted k) } := by
      obtain ⟨a1, a2, a3, a4, a5⟩ := ctx'
      obtain ⟨b1, b2, b3, b4, b5⟩ := ctx
      simp only at h1' h2' h3' h9' h10'
      simp only [Ctx.mk.injEq]
      exact ⟨h1', h2', h3', h9'.symm, h10'⟩
    subst hctx
    obtain ⟨p1, l, p2, p3, p4⟩ := hmin _ _ _ _ h5 h6
    obtain ⟨p1', l', p2', p3', p4'⟩ := hmin' _ _ _ _ h5' h6'
    rw [hprep] at h4' p2' p4'
    rw [hws] at p2 p4
    dsimp only at p2 p4 h4' p2' p4'
    rw [h4] at h4'
    have h4' := Except.ok.inj h4'
    subst h4'
    have hvec : ∀ (d : K) (l : List K), arrInUnit d (vecOf l) = vecOf (l.map fun e => d * e) := by
      intro d l; simp [vecOf, arrInUnit]
    have a1 := getResiduals_weight k hk m hm _ _ _ _ _ p2
    rw [hvec] at a1
    have a2 := p4' _ _ p1 a1
    rw [sumSq_scale] at a2
    have a3 := getResiduals_weight k⁻¹ (inv_pos.2 hk) m hm _ _ _ _ _ p2'
    have hinv : (ws.map fun v => k * v).map (fun v => k⁻¹ * v) = ws := by
      rw [List.map_map]
      conv => rhs; rw [← List.map_id ws]
      apply List.map_congr_left
      intro v _
      simp [hk0]
    have hre : ∀ d : Frame K, reweighted k⁻¹ (reweighted k d) = d := by
      rintro ⟨hd, hw, rows⟩
      simp only [reweighted, List.map_map, Frame.mk.injEq, true_and]
      conv => rhs; rw [← List.map_id rows]
      apply List.map_congr_left
      rintro ⟨t, x, y, w⟩ _
      cases w <;> simp [hk0]
    have hctx2 : (ctx.actuals.map (reweighted k)).map (reweighted k⁻¹) = ctx.actuals := by
      cases ctx.actuals <;> simp [hre]
    rw [hvec, hinv] at a3
    dsimp only at a3
    rw [hctx2] at a3
    have a4 := p4 _ _ p1' a3
    rw [sumSq_scale] at a4
    refine ⟨_, by rw [h8, p3], ?_⟩
    rw [h8', p3']
    have hfin : sumSq l' = k ^ 2 * sumSq l := by
      apply le_antisymm a2
      have := mul_le_mul_of_nonneg_left a4 (sq_nonneg k)
      rwa [← mul_assoc, ← mul_pow, mul_inv_cancel₀ hk0, one_pow, one_mul] at this
    rw [hfin]
    congr 1
    ring

/-! ### The stages of a run -/

theorem weight_pos_iff [IsStrictOrderedRing K] (k : K) (hk : 0 < k) (r : Row K) :
    decide (∃ w ∈ (sampleWeight k r).weight, 0 < w) = decide (∃ w ∈ r.weight, 0 < w) := by
  obtain ⟨t, x, y, w⟩ := r
  cases w <;> simp [sampleWeight, hk]

theorem weightedDates_reweighted [IsStrictOrderedRing K] (k : K) (hk : 0 < k) (df : Frame K) : weightedDates (reweighted k df) = weightedDates df := by
  obtain ⟨hd, hw, rows⟩ := df
  rw [reweighted_rows]
  cases hw with
  | false => simp only [weightedDates, Bool.false_eq_true, if_false, List.map_map]; rfl
  | true =>
    simp only [weightedDates, if_true, List.filter_map, List.map_map, Function.comp_def, weight_pos_iff k hk]
    rfl

theorem composedModels_reweighted [IsStrictOrderedRing K] (ch : Choices K) (args : ModelArgs K) (c : K) (hc : 0 < c) (df : Frame K) (mult : Bool) :
    composedModels ch args (reweighted c df) mult = composedModels ch args df mult := by
  have h1 : useRamp (reweighted c df) = useRamp df := by
    unfold useRamp
    rw [weightedDates_reweighted c hc]
    rfl
  have h2 : useCalendar (reweighted c df) = useCalendar df := by
    unfold useCalendar
    rw [weightedDates_reweighted c hc]
    rfl
  have h3 : (reweighted c df).hasDate = df.hasDate := rfl
  unfold composedModels
  rw [h1, h2, h3, weightedDates_reweighted c hc]

theorem isMultiplicative_reweighted [IsStrictOrderedRing K] (corr : Frame K → Res (Option K)) (c : K) (hc : 0 < c)
    (hcorr : ∀ df, corr (reweighted c df) = corr df) (df : Frame K) : isMultiplicative corr (reweighted c df) = isMultiplicative corr df := by
  have h1 : (reweighted c df).rows.any (fun r => decide (∃ v ∈ r.y, v ≤ 0)) = df.rows.any (fun r => decide (∃ v ∈ r.y, v ≤ 0)) := by
    simp only [reweighted, List.any_map]
    rfl
  have h2 : (reweighted c df).rows.map Row.date = df.rows.map Row.date := by simp only [reweighted, List.map_map]; rfl
  have h3 : ((reweighted c df).rows.filter fun r => r.y.isSome && (!(reweighted c df).hasWeight || decide (∃ w ∈ r.weight, 0 < w))).length =
      (df.rows.filter fun r => r.y.isSome && (!df.hasWeight || decide (∃ w ∈ r.weight, 0 < w))).length := by
    rw [reweighted_rows]
    simp only [List.filter_map, List.length_map, Function.comp_def, weight_pos_iff c hc]
    rfl
  unfold isMultiplicative
  rw [h1, h2, h3, hcorr]
  rfl

theorem candidates_reweighted [IsStrictOrderedRing K] (ch : Choices K) (args : ModelArgs K) (c : K) (hc : 0 < c)
    (hcorr : ∀ df, ch.corr (reweighted c df) = ch.corr df) (df : Frame K) (freq : Option Freq) :
    candidates ch args (reweighted c df) freq = candidates ch args df freq := by
  have hm : resolveMode ch args (reweighted c df) = resolveMode ch args df := by
    unfold resolveMode
    rw [isMultiplicative_reweighted _ c hc hcorr]
  unfold candidates
  rw [hm, composedModels_reweighted _ _ _ hc, composedModels_reweighted _ _ _ hc]

omit [LinearOrder K] in
theorem interpolateDf_reweighted (c : K) (df : Frame K) : interpolateDf (reweighted c df) = (interpolateDf df).map (reweighted c) := by
  obtain ⟨hd, hw, rows⟩ := df
  have h1 : (rows.map (sampleWeight c)).map Row.date = rows.map Row.date := by rw [List.map_map]; rfl
  have h2 : (rows.map (sampleWeight c)).map Row.x = rows.map Row.x := by rw [List.map_map]; rfl
  have hf : ∀ t, findRow (rows.map (sampleWeight c)) t = (findRow rows t).map (sampleWeight c) := by
    intro t
    unfold findRow
    rw [List.find?_map]
    rfl
  cases hd with
  | true =>
    unfold interpolateDf
    simp only [reweighted_rows, if_true, h1]
    by_cases hb : nuniqueDiff (dedupBy (fun t : Timestamp => t) (rows.map Row.date)) ≤ 1 ∧
        sparseDaily (detectFreq (rows.map Row.date)) (diffs (dedupBy (fun t : Timestamp => t) (rows.map Row.date))) = false
    · rw [if_pos hb, if_pos hb]; rfl
    rw [if_neg hb, if_neg hb]
    by_cases hdup : hasDup (rows.map Row.date) = true
    · rw [if_pos hdup, if_pos hdup]; rfl
    rw [if_neg hdup, if_neg hdup]
    cases listMin (rows.map Row.date) with
    | none => rfl
    | some a =>
      cases listMax (rows.map Row.date) with
      | none => rfl
      | some b =>
        dsimp only
        simp only [hf, List.map_map, Function.comp_def, Option.map_map]
        have e1 : (fun r : Row K => (((sampleWeight c r).x : Int) : ℚ)) = fun r : Row K => ((r.x : Int) : ℚ) := rfl
        simp only [e1]
        generalize toIntCol _ = ti
        cases ti with
        | error e => rfl
        | ok xs =>
          simp only [Except.map, reweighted_rows, List.map_zipWith, List.zipWith_map_left]
          congr 2
          congr 1
          funext t x
          cases findRow rows t with
          | none => rfl
          | some r => rfl
  | false =>
    unfold interpolateDf
    simp only [reweighted_rows, Bool.false_eq_true, if_false, h2]
    by_cases hb : nuniqueDiff (dedupBy (fun t : Int => t) (rows.map Row.x)) ≤ 1
    · rw [if_pos hb, if_pos hb]; rfl
    rw [if_neg hb, if_neg hb]
    by_cases hdup : hasDup (rows.map Row.x) = true
    · rw [if_pos hdup, if_pos hdup]; rfl
    rw [if_neg hdup, if_neg hdup]
    cases listMin (rows.map Row.x) with
    | none => rfl
    | some a =>
      cases listMax (rows.map Row.x) with
      | none => rfl
      | some b =>
        dsimp only
        simp only [Except.map, reweighted_rows, List.map_map]
        congr 2
        apply List.map_congr_left
        intro i _
        simp only [Function.comp]
        rw [List.find?_map]
        have : ((fun r : Row K => decide (r.x = a + (i : Int))) ∘ sampleWeight c) = fun r : Row K => decide (r.x = a + (i : Int)) := rfl
        rw [this]
        cases rows.find? (fun r => decide (r.x = a + (i : Int))) with
        | none => rfl
        | some r => rfl

theorem actuals_reweighted [IsStrictOrderedRing K] (srt : SortAlg) (c : K) (hc : 0 < c) (df used : Frame K) :
    actualsInterpolated srt (reweighted c df) (reweighted c used) = (actualsInterpolated srt df used).map (reweighted c) := by
  unfold actualsInterpolated
  rw [interpolateDf_reweighted]
  cases interpolateDf df with
  | error e => rfl
  | ok d =>
    simp only [Except.map, bind, Except.bind, reweighted_rows]
    rw [srt.natural (fun a b : Row K => decide (a.x ≤ b.x)) (fun a b : Row K => decide (a.x ≤ b.x)) (sampleWeight c) _ (fun _ _ _ _ => rfl)]
    congr 2
    rw [List.flatMap_map, List.map_flatMap]
    congr 1
    funext r
    unfold mergeWeight
    rw [List.filter_map]
    have : ((fun u : Row K => decide (u.x = (sampleWeight c r).x)) ∘ sampleWeight c) = fun u : Row K => decide (u.x = r.x) := rfl
    rw [this]
    cases used.rows.filter fun u => decide (u.x = r.x) with
    | nil => simp [sampleWeight]
    | cons u l =>
      dsimp only
      rw [List.map_cons]
      dsimp only
      rw [← List.map_cons (f := sampleWeight c), List.map_map, List.map_map]
      apply List.map_congr_left
      intro q _
      simp only [Function.comp]
      have e : (sampleWeight c q).weight.getD 0 = c * q.weight.getD 0 := by cases h : q.weight <;> simp [sampleWeight, h]
      rw [e]
      by_cases hq : 0 < q.weight.getD 0
      · rw [if_pos hq, if_pos (mul_pos hc hq)]; rfl
      · rw [if_neg hq, if_neg (by rwa [mul_pos_iff_of_pos_left hc])]; rfl

/-! ### The choice -/

theorem filterStart_hasWeight (s : Option Timestamp) (df : Frame K) : (filterStart s df).hasWeight = df.hasWeight := by
  unfold filterStart
  split <;> first | rfl | (split_ifs <;> rfl)

theorem applyOutliers_hasWeight [FloorRing K] (find : Bool) (df df2 : Frame K) (hw : df.hasWeight = true) (h : applyOutliers find df = .ok df2) :
    df2.hasWeight = true := by
  unfold applyOutliers at h
  cases find with
  | false =>
    have h := Except.ok.inj h
    rw [← h]; exact hw
  | true =>
    simp only [if_true, bind, Except.bind] at h
    cases hg : getModelOutliers df 3 with
    | error e => rw [hg] at h; cases h
    | ok masks => rw [hg] at h; cases h; rfl

theorem defaultWeights_weighted (df : Frame K) (hw : df.hasWeight = true) : (defaultWeights df).1 = df := by
  unfold defaultWeights; rw [if_pos hw]

/-- **C76, choice.** With all weights multiplied by the same positive number the same model is chosen. All solvers find the minimum; the comparison of
scores does not depend on a common factor of the costs (`aicC_unitFree`) and the test for multiplicative composition not on the weights; the fits of both
runs succeed for the same models, no model fits perfectly, and the chosen model is strictly better than all others. -/
theorem C76_choice [FloorRing K] [IsStrictOrderedRing K] (w w' : World K) (hw : w'.ch = w.ch ∧ w'.srt = w.srt) (args : RunArgs K) (source : String)
    (df : Frame K) (hweight : df.hasWeight = true) (c : K) (hc : 0 < c)
    (res res' : RunResult K) (hall : args.includeAll = true) (h : runSingle w args source df = .ok res)
    (h' : runSingle w' args source (reweighted c df) = .ok res')
    (hmin : ∀ i, FindsMinimum (w.env source i)) (hmin' : ∀ i, FindsMinimum (w'.env source i))
    (hcache : ∀ i, (w'.env source i).globalCache = (w.env source i).globalCache)
    (score : Option K → Nat → Nat → Res (Ext K)) (hscore : UnitFreeScore c score) (haic : ∀ i, (w.env source i).aic = score)
    (haic' : ∀ i, (w'.env source i).aic = score)
    (hcorr : ∀ df, w.ch.corr (reweighted c df) = w.ch.corr df)
    (hmod : ∀ df' cand, candidates w.ch args.models df' (runFreq df) = .ok cand → ∀ m ∈ cand.2, Unpinned m ∧ WeightFree m)
    (hsame : res'.metadata.map MRow.isFit = res.metadata.map MRow.isFit)
    (hpos : ∀ r ∈ res.metadata, ∀ e, r.cost = some e → 0 < e) (b : MRow K) (hb : b ∈ res.metadata) (hbf : b.isFit = true)
    (hstrict : ∀ q ∈ res.metadata, q.isFit = true → q.model ≠ b.model → Ext.lt b.aic q.aic = true) :
    (∀ q ∈ res'.metadata, q.isBest = true → q.model = b.model) ∧ ∃ q ∈ res'.metadata, q.isBest = true ∧ q.model = b.model := by
  have hfit' : ∃ r ∈ res'.metadata, r.isFit = true := by
    have : true ∈ res.metadata.map MRow.isFit := List.mem_map.2 ⟨b, hb, hbf⟩
    rw [← hsame] at this
    obtain ⟨r, hr, e⟩ := List.mem_map.1 this
    exact ⟨r, hr, e⟩
  obtain ⟨q, hq, hq1, hq2, hq3⟩ := C35_lowest w' args source _ res' hall h' hfit'
  -- the rows of both tables correspond
  obtain ⟨d, hd, -, hmeta, -⟩ := runSingle_inv w args source df res h
  obtain ⟨d', hd', -, hmeta', -⟩ := runSingle_inv w' args source _ res' h'
  obtain ⟨st⟩ := runFits_stages w args source df d hd
  obtain ⟨st'⟩ := runFits_stages w' args source _ d' hd'
  have hd2 : d.2 = _ := congrArg Prod.snd st.hd
  have hd2' : d'.2 = _ := congrArg Prod.snd st'.hd
  unfold selectFits at hmeta hmeta'
  rw [if_pos hall, hd2] at hmeta
  rw [if_pos hall, hd2'] at hmeta'
  have hw1 : (filterStart args.start df).hasWeight = true := by rw [filterStart_hasWeight]; exact hweight
  have hw2 := applyOutliers_hasWeight _ _ _ hw1 st.hOut
  have hOut' := st'.hOut
  rw [filterStart_reweighted, applyOutliers_reweighted c _ _ hw1, st.hOut] at hOut'
  have hdf2 : reweighted c st.df2 = st'.df2 := Except.ok.inj hOut'
  have hCand' := st'.hCand
  have hAct' := st'.hAct
  have hFits' := st'.hFits
  have hdw : (defaultWeights st.df2).1 = st.df2 := defaultWeights_weighted _ hw2
  have hdw' : (defaultWeights (reweighted c st.df2)).1 = reweighted c (defaultWeights st.df2).1 := by
    rw [hdw]; exact defaultWeights_weighted _ hw2
  rw [← hdf2, hdw'] at hCand' hAct' hFits'
  rw [hw.1, runFreq_reweighted, candidates_reweighted w.ch args.models c hc hcorr, st.hCand] at hCand'
  have hcand : st.cand = st'.cand := Except.ok.inj hCand'
  rw [hw.2, usedRows_reweighted c hc, actuals_reweighted _ c hc, st.hAct] at hAct'
  have hact : reweighted c st.actuals = st'.actuals := Except.ok.inj hAct'
  rw [← hcand, ← hact] at hFits'
  obtain ⟨len, spec, -⟩ := fitLoop_spec _ _ _ _ _ st.hFits
  obtain ⟨len', spec', -⟩ := fitLoop_spec _ _ _ _ _ hFits'
  have row : ∀ (k : Nat) (m : ForecastModel K), st.cand.2[k]? = some m → ∃ r r' : MRow K, res.metadata[k]? = some r ∧ res'.metadata[k]? = some r' ∧ r.model = m.name ∧
      r'.model = m.name ∧ r'.isFit = r.isFit ∧ (r.isFit = true → ∃ e, r.cost = some e ∧ r'.cost = some (c ^ 2 * e) ∧
        score (some e) (usableRows (usedRows (defaultWeights st.df2).1)).length m.nParams = .ok r.aic ∧
        score (some (c ^ 2 * e)) (usableRows (usedRows (defaultWeights st.df2).1)).length m.nParams = .ok r'.aic) := by
    intro k m hk
    obtain ⟨hu, hm⟩ := hmod _ _ st.hCand m (List.mem_of_getElem? hk)
    obtain ⟨f, rows, f1, -, f3, -⟩ := spec k m hk
    obtain ⟨f', rows', f1', -, f3', -⟩ := spec' k m hk
    simp only [mkSetup, usedRows_reweighted c hc] at f1 f1'
    have m1 : res.metadata[k]? = some (flagMeta (bestKey w.srt st.fits.1) (metaRow (mkSetup w args source df (defaultWeights st.df2).1
        (defaultWeights st.df2).2 st.cand.1 st.actuals) m f)) := by
      rw [hmeta, List.getElem?_map, f3]; rfl
    have m1' : res'.metadata[k]? = some (flagMeta (bestKey w'.srt st'.fits.1) (metaRow (mkSetup w' args source (reweighted c df)
        (reweighted c (defaultWeights st.df2).1) (defaultWeights (reweighted c st.df2)).2 st.cand.1 (reweighted c st.actuals)) m f')) := by
      rw [hmeta', List.getElem?_map, f3']; rfl
    have hfit : f'.isFit = f.isFit := by
      have e1 := congrArg (fun l : List Bool => l[k]?) hsame
      simp only [List.getElem?_map, m1, m1', Option.map_some, Option.some.injEq] at e1
      exact e1
    refine ⟨_, _, m1, m1', fit_unpinned _ _ _ _ _ _ hu f1, fit_unpinned _ _ _ _ _ _ hu f1', hfit, ?_⟩
    intro hf
    have hf : f.isFit = true := hf
    obtain ⟨e, c1, c2⟩ := C76_cost _ _ (hmin _) (hmin' _) (hcache _) m hu hm c hc _ (show (usedRows (defaultWeights st.df2).1).hasWeight = true by rw [hdw]; exact hw2) (some st.actuals) _ f f' f1 f1' hf (hfit.trans hf)
    have s1 := fitModel_score _ m _ _ _ f hu f1 hf
    have s2 := fitModel_score _ m _ _ _ f' hu f1' (hfit.trans hf)
    rw [haic, c1] at s1
    rw [haic', c2, usableRows_reweighted c hc, List.length_map] at s2
    exact ⟨e, c1, c2, s1, s2⟩
  have hlen : res.metadata.length = st.cand.2.length := by rw [hmeta, List.length_map, len]
  have hlen' : res'.metadata.length = st.cand.2.length := by rw [hmeta', List.length_map, len']
  obtain ⟨kb, hkb⟩ := List.mem_iff_getElem?.1 hb
  obtain ⟨kq, hkq⟩ := List.mem_iff_getElem?.1 hq
  have hkb' : kb < st.cand.2.length := by
    have := (List.getElem?_eq_some_iff.1 hkb).1
    omega
  have hkq' : kq < st.cand.2.length := by
    have := (List.getElem?_eq_some_iff.1 hkq).1
    omega
  obtain ⟨b0, b', t1, t2, t3, t4, t5, t6⟩ := row kb _ (List.getElem?_eq_getElem hkb')
  obtain ⟨q0, q', u1, u2, u3, u4, u5, u6⟩ := row kq _ (List.getElem?_eq_getElem hkq')
  rw [hkb] at t1
  rw [hkq] at u2
  cases t1
  cases u2
  have hmodel : q.model = b.model := by
    by_contra hne
    have hq0 : q0 ∈ res.metadata := List.mem_of_getElem? u1
    have hqf : q0.isFit = true := by rw [← u5]; exact hq2
    have hlt := hstrict q0 hq0 hqf (by rw [u3, ← u4]; exact hne)
    obtain ⟨e, v1, v2, v3, v4⟩ := t6 hbf
    obtain ⟨e', v1', v2', v3', v4'⟩ := u6 hqf
    have := hscore e e' _ _ _ _ _ _ _ (hpos b hb e v1) (hpos q0 hq0 e' v1') v3 v3' v4 v4' hlt
    exact hq3 b' (List.mem_of_getElem? t2) (by rw [t5]; exact hbf) (.inl this)
  refine ⟨?_, q, hq, hq1, hmodel⟩
  intro r hr hrb
  rw [← hmodel]
  exact (C35_one_model w' args source _ res' h' r q hr hq hrb hq1).1


/-! ### Models that do not look at weights -/

theorem weightFree_null : WeightFree (modelNull : ForecastModel K) := fun _ _ _ _ _ => rfl
theorem weightFree_constant : WeightFree (modelConstant : ForecastModel K) := fun _ _ _ _ _ => rfl
theorem weightFree_linear : WeightFree (modelLinear : ForecastModel K) := fun _ _ _ _ _ => rfl
theorem weightFree_linearNondec : WeightFree (modelLinearNondec : ForecastModel K) := fun _ _ _ _ _ => rfl
theorem weightFree_ramp : WeightFree (modelRamp : ForecastModel K) := fun _ _ _ _ _ => rfl
theorem weightFree_step : WeightFree (modelStep : ForecastModel K) := fun _ _ _ _ _ => rfl
theorem weightFree_seasonWday : WeightFree (modelSeasonWday : ForecastModel K) := fun _ _ _ _ _ => rfl
theorem weightFree_seasonMonth : WeightFree (modelSeasonMonth : ForecastModel K) := fun _ _ _ _ _ => rfl
theorem weightFree_fourier : WeightFree modelFourier := fun _ _ _ _ _ => rfl

theorem weightFree_dummy (name : String) (f : DummyFn K) (m : ForecastModel K) (h : getModelDummy name f = .ok m) : WeightFree m := by
  unfold getModelDummy at h
  simp only [bind, Except.bind] at h
  cases e : validateFDummy f with
  | error e' => rw [e] at h; cases h
  | ok u =>
    rw [e] at h
    cases h
    exact fun _ _ _ _ _ => rfl

/-- Sums and products. -/
theorem weightFree_compose (mult : Bool) (m1 m2 : ForecastModel K) (h1 : WeightFree m1) (h2 : WeightFree m2) : WeightFree (compose mult m1 m2) := by
  unfold compose
  split_ifs
  · exact h2
  · exact h1
  · intro k ctx p mu hk
    show fMult2 m1 m2 _ p mu = fMult2 m1 m2 ctx p mu
    unfold fMult2
    simp only [h1 k ctx _ _ hk, h2 k ctx _ _ hk]
  · intro k ctx p mu hk
    show fAdd2 m1 m2 _ p mu = fAdd2 m1 m2 ctx p mu
    unfold fAdd2
    simp only [h1 k ctx _ _ hk, h2 k ctx _ _ hk]

theorem weightFree_naive (srt : SortAlg) : WeightFree (modelNaive srt : ForecastModel K) := by
  intro k ctx p mult hk
  obtain ⟨ax, ad, act, ca, hca⟩ := ctx
  show fModelNaive srt _ p mult = fModelNaive srt _ p mult
  unfold fModelNaive
  dsimp only
  cases act with
  | none => rfl
  | some df =>
    obtain ⟨hd, hw, rows⟩ := df
    have e1 : (some (⟨hd, hw, rows⟩ : Frame K)).map (reweighted k) = some ⟨hd, hw, rows.map (sampleWeight k)⟩ := rfl
    rw [e1]
    have hq : queries (⟨ax, ad, some ⟨hd, hw, rows.map (sampleWeight k)⟩, ca, hca⟩ : Ctx K) = queries ⟨ax, ad, some ⟨hd, hw, rows⟩, ca, hca⟩ := rfl
    have hm : ∀ (l : List (Row K)) qs, outerMerge hd (l.map (sampleWeight k)) qs = outerMerge hd l qs := by
      intro l qs
      unfold outerMerge
      rw [List.flatMap_map]
      simp only [List.any_map]
      rfl
    rw [hq]
    dsimp only
    rw [dedupBy_image (sampleWeight k) Row.x Row.x (fun _ => rfl)]
    simp only [hm]

theorem weightFree_snaive (srt : SortAlg) : WeightFree (modelSnaiveWday srt : ForecastModel K) := by
  intro k ctx p mult hk
  obtain ⟨ax, ad, act, ca, hca⟩ := ctx
  show fModelSnaiveWday srt _ p mult = fModelSnaiveWday srt _ p mult
  unfold fModelSnaiveWday
  dsimp only
  cases act with
  | none => rfl
  | some df =>
    obtain ⟨hd, hw, rows⟩ := df
    have e1 : (some (⟨hd, hw, rows⟩ : Frame K)).map (reweighted k) = some ⟨hd, hw, rows.map (sampleWeight k)⟩ := rfl
    rw [e1]
    let f : WdayRow K → WdayRow K := fun r => ⟨sampleWeight k r.row, r.yOut⟩
    have hadd : ∀ l : List (Row K), addYOut (l.map (sampleWeight k)) = (addYOut l).map f := by
      intro l
      unfold addYOut
      have hy : (l.map (sampleWeight k)).map Row.y = l.map Row.y := by rw [List.map_map]; rfl
      rw [hy, List.zipWith_map_left, List.map_zipWith]
    have hact : fillnaWday srt (dedupBy Row.x (rows.map (sampleWeight k))) = (fillnaWday srt (dedupBy Row.x rows)).map f := by
      rw [dedupBy_image (sampleWeight k) Row.x Row.x (fun _ => rfl)]
      unfold fillnaWday
      rw [← srt.natural wdayRowLe wdayRowLe f _ (fun _ _ _ _ => rfl), List.map_flatMap]
      congr 2
      funext w
      rw [List.filter_map, hadd]
      rfl
    dsimp only
    rw [hact]
    generalize fillnaWday srt (dedupBy Row.x rows) = act
    have hlast : ∀ w, lastWeek (act.map f) w = lastWeek act w := by
      intro w
      unfold lastWeek
      rw [List.filter_map, List.getLast?_map]
      have : ((fun r : WdayRow K => decide (weekday r.row.date = w)) ∘ f) = fun r : WdayRow K => decide (weekday r.row.date = w) := rfl
      rw [this]
      cases (act.filter fun r => decide (weekday r.row.date = w)).getLast? <;> rfl
    simp only [hlast, List.flatMap_map, List.any_map]
    rfl

/-! ### A concrete case -/

/-- The toy series with weights. -/
def toyWeighted : Frame ℚ := ⟨true, true, toyFrame.rows.map fun r => { r with weight := some (if r.x < 4 then 1 else 2) }⟩

/-- The hypotheses of `C76_choice` are met: the seasonal naive model is chosen with weights 1 and 2 as with weights 3 and 6. -/
example : ∃ res res', runSingle toyWorld toyArgs "s" toyWeighted = .ok res ∧ runSingle toyWorld toyArgs "s" (reweighted 3 toyWeighted) = .ok res' ∧
    ∃ b ∈ res.metadata, b.model = "snaive_wday" ∧ (∀ q ∈ res'.metadata, q.isBest = true → q.model = b.model) ∧
      ∃ q ∈ res'.metadata, q.isBest = true ∧ q.model = b.model := by
  have facts : (match runSingle toyWorld toyArgs "s" toyWeighted, runSingle toyWorld toyArgs "s" (reweighted 3 toyWeighted) with
      | .ok res, .ok res' => decide (res'.metadata.map MRow.isFit = res.metadata.map MRow.isFit ∧
          (∀ r ∈ res.metadata, ∀ e ∈ r.cost, 0 < e) ∧ ∃ b ∈ res.metadata, b.model = "snaive_wday" ∧ b.isFit = true ∧
            ∀ q ∈ res.metadata, q.isFit = true → q.model ≠ b.model → Ext.lt b.aic q.aic = true)
      | _, _ => false) = true := by decide +kernel
  cases h : runSingle toyWorld toyArgs "s" toyWeighted with
  | error e => rw [h] at facts; cases facts
  | ok res =>
    cases h' : runSingle toyWorld toyArgs "s" (reweighted 3 toyWeighted) with
    | error e => rw [h, h'] at facts; cases facts
    | ok res' =>
      rw [h, h'] at facts
      obtain ⟨f1, f2, b, f3, f4, f5, f6⟩ := of_decide_eq_true facts
      refine ⟨res, res', rfl, rfl, b, f3, f4, ?_⟩
      have hmin : ∀ i, FindsMinimum (toyWorld.env "s" i) := by
        intro i f guess bd r hr
        cases hr
      refine C76_choice toyWorld toyWorld ⟨rfl, rfl⟩ toyArgs "s" toyWeighted rfl 3 (by norm_num) res res' rfl h h' hmin hmin (fun _ => rfl) _
        (toyScore 3 (by norm_num)) (fun _ => rfl) (fun _ => rfl) (fun _ => rfl) ?_ f1 f2 b f3 f5 f6
      intro df' cand hc m hm
      refine ⟨(toyCandidates df' _ cand hc m hm).1, ?_⟩
      have e : candidates toyWorld.ch toyArgs.models df' (runFreq toyWeighted) = .ok (.add, [modelNaive stableSort, modelSnaiveWday stableSort]) := rfl
      rw [e] at hc
      cases hc
      simp only [List.mem_cons, List.not_mem_nil, or_false] at hm
      rcases hm with rfl | rfl
      · exact weightFree_naive _
      · exact weightFree_snaive _

end Anticipy
