import Verif.Props.OnlyCounted
import Verif.Props.MoreWeight
import Verif.Props.UnitChoice
import Verif.Props.Run

/-
C127: scores and the choice of the model depend only on the samples that count.
-/
namespace Anticipy
open Spec
variable {K : Type} [Field K] [LinearOrder K] [FloorRing K]

/-- The cost in the metadata is half of the least sum of squared errors over the rows that count; the score is that of the cost. -/
theorem best_meta [IsStrictOrderedRing K] (w : World K) (args : RunArgs K) (id : String) (t : STable K) (hp : Proper t) (s : String) (hs : IsSeries t id s)
    (res : RunResult K) (h : runForecast w args id t = .ok (some res)) (hout : args.findOutliers = false) (m : ForecastModel K)
    (val : List K → Int → Timestamp → K) (hm : HasFormula m false val)
    (reg : Registry K) (ht : CacheTransparent reg m) (hx : FitsExactly w args s (seriesFrame t s) m reg)
    (hall : ∀ df' cand, candidates w.ch args.models df' (runFreq (seriesFrame t s)) = .ok cand → ∀ m1 ∈ cand.2, Unpinned m1)
    (b : MRow K) (hb : b ∈ (partOf t s res).metadata) (hbm : b.model = m.name) (hbf : b.isFit = true) :
    2 ≤ (counted args.start t s).length ∧ ∃ p : List K, p.length = m.nParams ∧
      b.cost = some (squares args.start t s (fun r => r.y.getD 0 - val p ((r.date - originOf t s) / (24 * 60 * 60 * 1000000000)) r.date) / 2) ∧
      (∃ i, (w.env s i).aic b.cost (counted args.start t s).length m.nParams = .ok b.aic) ∧
      ∀ q : List K, q.length = m.nParams →
        squares args.start t s (fun r => r.y.getD 0 - val p ((r.date - originOf t s) / (24 * 60 * 60 * 1000000000)) r.date) ≤
          squares args.start t s (fun r => r.y.getD 0 - val q ((r.date - originOf t s) / (24 * 60 * 60 * 1000000000)) r.date) := by
  obtain ⟨hd, hrun⟩ := series_run w id t hp s hs
  have h1 := hrun args res h
  obtain ⟨d, hd1, -, hmeta, -⟩ := runSingle_inv w args s _ _ h1
  obtain ⟨st⟩ := runFits_stages w args s _ d hd1
  have hb' : b ∈ d.2 := by
    rw [hmeta] at hb
    unfold selectFits at hb
    split_ifs at hb
    · exact hb
    · exact (List.mem_filter.1 hb).1
  obtain ⟨u1, -⟩ := used_rows args.findOutliers args.start _ st.df2 st.hOut
  obtain ⟨i, m', f, e1, e2, g1, g2, g3, g4, g5⟩ := metadata_stage w args s _ d st b hb'
  have hmem := List.mem_of_getElem? e1
  have hmm : m' = m := hx.only _ _ st.hCand _ hmem (by rw [← fit_unpinned _ _ _ _ _ _ (hall _ _ st.hCand _ hmem) e2, ← g1, hbm])
  subst hmm
  have hfit : f.isFit = true := by rw [← g2, hbf]
  obtain ⟨k1, k2, k3⟩ := formula_minimal _ (hx.minimum i) m' val hm reg (hx.registered i) ht _ (by rw [u1]; exact hd.dated) _ _ f e2 hfit
  have hsc := fitModel_solver _ m' _ _ _ f hm.unpinned hm.params e2 hfit
  have hn2 := hsc.1
  obtain ⟨-, ctx, guess, bb, r, -, -, -, -, -, -, -, -, -, -, -, haic⟩ := hsc
  obtain ⟨df2, hOut, hobs⟩ := observed_rows w args s _ _ h1 hd.dated
  rw [st.hOut] at hOut
  cases hOut
  have hn : (usableRows (usedRows (defaultWeights st.df2).1)).length = (counted args.start t s).length := by
    have e := congrArg List.length hobs
    have e' := (observed_samples w args id t res h s hs hp.onePerDate.hasDate hout).length_eq
    unfold samplesOf at e'
    simp only [List.length_map] at e e'
    exact e.symm.trans e'
  have conv : ∀ p : List K, misfit (usedRows (defaultWeights st.df2).1) (val p) =
      squares args.start t s (fun r => r.y.getD 0 - val p ((r.date - originOf t s) / (24 * 60 * 60 * 1000000000)) r.date) := by
    intro p
    rw [misfit_observed w args s _ _ h1 st.df2 st.hOut hd.dated _ hd.days hd.nodup]
    unfold squaredErrors
    rw [observed_sum w args id t res h s hs hp.onePerDate.hasDate hout fun d y wt => (wt * (y - val p ((d - originOf t s) / (24 * 60 * 60 * 1000000000)) d)) ^ 2]
    unfold squares
    simp only [mul_pow]
  rw [hn] at haic hn2
  refine ⟨by omega, f.params, k1, ?_, ⟨i, ?_⟩, fun q hq => ?_⟩
  · rw [g3, k2, conv]
  · rw [g3, g5]; exact haic
  · rw [← conv, ← conv]; exact k3 q hq

omit [FloorRing K] in
theorem squares_samples (start : Option Timestamp) (t : STable K) (s : String) (v : Timestamp → K) :
    squares start t s (fun r => r.y.getD 0 - v r.date) = ((samplesOf start t s).map fun p => p.2.2 ^ 2 * (p.2.1 - v p.1) ^ 2).sum := by
  unfold squares
  rw [← counted_samples start t s fun d y wt => wt ^ 2 * (y - v d) ^ 2]

omit [FloorRing K] in
theorem squares_same (k : K) (start start' : Option Timestamp) (t t' : STable K) (s s' : String) (h : SameSamples k start start' t t' s s') (v : Timestamp → K) :
    squares start' t' s' (fun r => r.y.getD 0 - v r.date) = k ^ 2 * squares start t s (fun r => r.y.getD 0 - v r.date) := by
  rw [squares_samples, squares_samples, (h.map _).sum_eq, List.map_map, ← List.sum_map_mul_left]
  congr 1
  apply List.map_congr_left
  intro p _
  simp only [Function.comp]
  ring

/-- **C127, scores.** Two series with the same samples that count, all weights multiplied by a common factor `k`: every model with a formula that does not depend on
where x starts has the cost times `k ^ 2` in the second result, and its score is the score of that cost for the same number of samples. -/
theorem C127_score [IsStrictOrderedRing K] (w w' : World K) (args args' : RunArgs K) (id id' : String) (t t' : STable K) (hp : Proper t) (hp' : Proper t')
    (s s' : String) (hs : IsSeries t id s) (hs' : IsSeries t' id' s') (res res' : RunResult K) (h : runForecast w args id t = .ok (some res))
    (h' : runForecast w' args' id' t' = .ok (some res')) (hout : args.findOutliers = false) (hout' : args'.findOutliers = false)
    (k : K) (hsame : SameSamples k args.start args'.start t t' s s')
    (m : ForecastModel K) (val : List K → Int → Timestamp → K) (hm : HasFormula m false val) (horig : NoOrigin m.nParams val)
    (reg : Registry K) (ht : CacheTransparent reg m)
    (hx : FitsExactly w args s (seriesFrame t s) m reg) (hx' : FitsExactly w' args' s' (seriesFrame t' s') m reg)
    (hall : ∀ df' cand, candidates w.ch args.models df' (runFreq (seriesFrame t s)) = .ok cand → ∀ m1 ∈ cand.2, Unpinned m1)
    (hall' : ∀ df' cand, candidates w'.ch args'.models df' (runFreq (seriesFrame t' s')) = .ok cand → ∀ m1 ∈ cand.2, Unpinned m1)
    (b b' : MRow K) (hb : b ∈ (partOf t s res).metadata) (hbm : b.model = m.name) (hbf : b.isFit = true)
    (hb' : b' ∈ (partOf t' s' res').metadata) (hbm' : b'.model = m.name) (hbf' : b'.isFit = true) :
    ∃ e, b.cost = some e ∧ b'.cost = some (k ^ 2 * e) ∧ ∃ i i', (w.env s i).aic (some e) (counted args.start t s).length m.nParams = .ok b.aic ∧
      (w'.env s' i').aic (some (k ^ 2 * e)) (counted args.start t s).length m.nParams = .ok b'.aic := by
  obtain ⟨hn, p, p1, p2, ⟨i, p3⟩, p4⟩ := best_meta w args id t hp s hs res h hout m val hm reg ht hx hall b hb hbm hbf
  obtain ⟨hn', p', p1', p2', ⟨i', p3'⟩, p4'⟩ := best_meta w' args' id' t' hp' s' hs' res' h' hout' m val hm reg ht hx' hall' b' hb' hbm' hbf'
  have hlen : (counted args'.start t' s').length = (counted args.start t s).length := by
    have := hsame.length_eq
    unfold samplesOf at this
    simpa using this
  -- the origins are whole days apart
  obtain ⟨hds, hrun⟩ := series_run w id t hp s hs
  obtain ⟨hds', hrun'⟩ := series_run w' id' t' hp' s' hs'
  have ho := observed_samples w args id t res h s hs hp.onePerDate.hasDate hout
  have ho' := observed_samples w' args' id' t' res' h' s' hs' hp'.onePerDate.hasDate hout'
  obtain ⟨j, hj⟩ : ∃ j : Int, originOf t s - originOf t' s' = j * (24 * 60 * 60 * 1000000000) := by
    obtain ⟨a, ha⟩ : ∃ a, a ∈ observed (partOf t s res) := by
      apply List.exists_mem_of_ne_nil
      intro e
      have := ho.length_eq
      unfold samplesOf at this
      rw [e] at this
      simp only [List.length_map, List.length_nil] at this
      omega
    have g1 := ho.mem_iff.1 (List.mem_map_of_mem (f := fun a : DRow K => (a.date, a.y.getD 0, a.weight.getD 0)) ha)
    have g2 := hsame.mem_iff.2 (List.mem_map_of_mem (f := fun p : Timestamp × K × K => (p.1, p.2.1, k * p.2.2)) g1)
    obtain ⟨c, hc, e⟩ := List.mem_map.1 (ho'.mem_iff.2 g2)
    have e : c.date = a.date := congrArg Prod.fst e
    obtain ⟨x, hx⟩ := observed_days w args s _ _ (hrun args res h) hds.dated _ hds.days a ha
    obtain ⟨y, hy⟩ := observed_days w' args' s' _ _ (hrun' args' res' h') hds'.dated _ hds'.days c hc
    refine ⟨y - x, ?_⟩
    rw [e] at hy
    linarith
  obtain ⟨T, hT⟩ := horig j
  obtain ⟨T', hT'⟩ := horig (-j)
  have moved : ∀ q : List K, q.length = m.nParams → ∀ d, val (T q) ((d - originOf t' s') / (24 * 60 * 60 * 1000000000)) d =
      val q ((d - originOf t s) / (24 * 60 * 60 * 1000000000)) d := by
    intro q hq d
    rw [days_shift (originOf t s) (originOf t' s') d j hj, (hT q hq).2]
  have moved' : ∀ q : List K, q.length = m.nParams → ∀ d, val (T' q) ((d - originOf t s) / (24 * 60 * 60 * 1000000000)) d =
      val q ((d - originOf t' s') / (24 * 60 * 60 * 1000000000)) d := by
    intro q hq d
    rw [days_shift (originOf t' s') (originOf t s) d (-j) (by linarith), (hT' q hq).2]
  have c1 := p4 (T' p') (hT' p' p1').1
  have c2 := p4' (T p) (hT p p1).1
  simp only [moved p p1] at c2
  simp only [moved' p' p1'] at c1
  rw [squares_same k _ _ _ _ _ _ hsame fun d => val p' ((d - originOf t' s') / (24 * 60 * 60 * 1000000000)) d] at c2 p2'
  rw [squares_same k _ _ _ _ _ _ hsame fun d => val p ((d - originOf t s) / (24 * 60 * 60 * 1000000000)) d] at c2
  have c3 := mul_le_mul_of_nonneg_left c1 (sq_nonneg k)
  have hc : b'.cost = some (k ^ 2 * (squares args.start t s (fun r => r.y.getD 0 - val p ((r.date - originOf t s) / (24 * 60 * 60 * 1000000000)) r.date) / 2)) := by
    rw [p2', le_antisymm c2 c3, mul_div_assoc]
  refine ⟨_, p2, hc, i, i', ?_, ?_⟩
  · rw [← p2]; exact p3
  · rw [← hc, ← hlen]; exact p3'

/-- A model whose score depends only on the samples that count, in both runs. -/
structure Spec.ScoredAlike (w w' : World K) (args args' : RunArgs K) (t t' : STable K) (s s' : String) (m : ForecastModel K) : Prop where
  formula : ∃ val : List K → Int → Timestamp → K, HasFormula m false val ∧ NoOrigin m.nParams val
  fits : ∃ reg, CacheTransparent reg m ∧ FitsExactly w args s (seriesFrame t s) m reg ∧ FitsExactly w' args' s' (seriesFrame t' s') m reg

/-- **C127, choice.** Two series with the same samples that count, all weights multiplied by a common factor: if both runs choose among such models, they choose the same
one. The candidates `b` and `b'` are chosen in the first and in the second run; `b` is strictly better than the model of `b'`, if that is another one; both models are fitted in
both runs, and no fit is perfect. -/
theorem C127_choice [IsStrictOrderedRing K] (w w' : World K) (args args' : RunArgs K) (id id' : String) (t t' : STable K) (hp : Proper t) (hp' : Proper t')
    (s s' : String) (hs : IsSeries t id s) (hs' : IsSeries t' id' s') (res res' : RunResult K) (h : runForecast w args id t = .ok (some res))
    (h' : runForecast w' args' id' t' = .ok (some res')) (hout : args.findOutliers = false) (hout' : args'.findOutliers = false)
    (k : K) (hsame : SameSamples k args.start args'.start t t' s s')
    (hall : ∀ df' cand, candidates w.ch args.models df' (runFreq (seriesFrame t s)) = .ok cand → ∀ m1 ∈ cand.2, Unpinned m1)
    (hall' : ∀ df' cand, candidates w'.ch args'.models df' (runFreq (seriesFrame t' s')) = .ok cand → ∀ m1 ∈ cand.2, Unpinned m1)
    (score : Option K → Nat → Nat → Res (Ext K)) (hscore : UnitFreeScore k score) (haic : ∀ i, (w.env s i).aic = score) (haic' : ∀ i, (w'.env s' i).aic = score)
    (hinc' : args'.includeAll = true) (m m' : ForecastModel K) (hm : ScoredAlike w w' args args' t t' s s' m) (hm' : ScoredAlike w w' args args' t t' s s' m')
    (b q : MRow K) (hb : b ∈ (partOf t s res).metadata) (hbm : b.model = m.name) (hbf : b.isFit = true)
    (hq : q ∈ (partOf t s res).metadata) (hqm : q.model = m'.name) (hqf : q.isFit = true)
    (hstrict : m'.name ≠ m.name → Ext.lt b.aic q.aic = true) (hpos : ∀ r ∈ (partOf t s res).metadata, ∀ e, r.cost = some e → 0 < e)
    (b' q' : MRow K) (hq' : q' ∈ (partOf t' s' res').metadata) (hqm' : q'.model = m.name) (hqf' : q'.isFit = true)
    (hb' : b' ∈ (partOf t' s' res').metadata) (hbm' : b'.model = m'.name) (hbf' : b'.isFit = true) (hbest' : b'.isBest = true) : b'.model = b.model := by
  rw [hbm, hbm']
  by_contra hne
  have hlt := hstrict hne
  obtain ⟨val, f1, f2⟩ := hm.formula
  obtain ⟨reg, r1, r2, r3⟩ := hm.fits
  obtain ⟨val', f1', f2'⟩ := hm'.formula
  obtain ⟨reg', r1', r2', r3'⟩ := hm'.fits
  obtain ⟨e, c1, c2, i, j, c3, c4⟩ := C127_score w w' args args' id id' t t' hp hp' s s' hs hs' res res' h h' hout hout' k hsame m val f1 f2 reg r1 r2 r3 hall hall'
    b q' hb hbm hbf hq' hqm' hqf'
  obtain ⟨e', c1', c2', i', j', c3', c4'⟩ := C127_score w w' args args' id id' t t' hp hp' s s' hs hs' res res' h h' hout hout' k hsame m' val' f1' f2' reg' r1' r2' r3'
    hall hall' q b' hq hqm hqf hb' hbm' hbf'
  rw [haic] at c3 c3'
  rw [haic'] at c4 c4'
  have hless := hscore e e' _ _ _ _ _ _ _ (hpos b hb e c1) (hpos q hq e' c1') c3 c3' c4 c4' hlt
  obtain ⟨-, hrun'⟩ := series_run w' id' t' hp' s' hs'
  obtain ⟨x, x1, x2, x3, x4⟩ := C35_lowest w' args' s' _ _ hinc' (hrun' args' res' h') ⟨b', hb', hbf'⟩
  have hx := (C35_one_model w' args' s' _ _ (hrun' args' res' h') b' x hb' x1 hbest' x2).1
  -- the row `x` of the chosen model has the score of `b'`
  obtain ⟨e'', d1, d2, -, j'', -, d4⟩ := C127_score w w' args args' id id' t t' hp hp' s s' hs hs' res res' h h' hout hout' k hsame m' val' f1' f2' reg' r1' r2' r3'
    hall hall' q x hq hqm hqf x1 (by rw [← hx, hbm']) x3
  rw [c1'] at d1
  cases d1
  rw [haic', c4'] at d4
  have d4 := Except.ok.inj d4
  rw [← d4] at x4
  exact x4 q' hq' hqf' (.inl hless)

omit [FloorRing K] in
/-- The order of the rows does not matter for the samples that count. -/
theorem sameSamples_reordered (start : Option Timestamp) (t t' : STable K) (s : String) (hre : Reordered t t') : SameSamples 1 start start t t' s s := by
  have hrows : (rowsOf t' s).Perm (rowsOf t s) := by
    unfold rowsOf only
    rw [hre.hasSource]
    split_ifs
    · exact hre.rows.filter _
    · exact hre.rows
  have hw : rowWeight t' = rowWeight t := by
    funext r
    unfold rowWeight
    rw [hre.hasWeight]
  unfold SameSamples samplesOf counted
  rw [hw, List.map_map]
  simp only [Function.comp_def, one_mul]
  exact (hrows.filter _).map _

theorem proper_reordered (t t' : STable K) (hre : Reordered t t') (hp : Proper t) : Proper t' := by
  refine ⟨onePerDate_reordered t t' hre hp.onePerDate, fun h r hr => hp.labelled (by rw [← hre.hasSource]; exact h) r (hre.rows.mem_iff.1 hr)⟩

omit [FloorRing K] in
theorem isSeries_reordered (t t' : STable K) (hre : Reordered t t') (id s : String) (h : IsSeries t id s) : IsSeries t' id s := by
  unfold IsSeries at h ⊢
  rw [hre.hasSource]
  split_ifs at h ⊢ with hso
  · obtain ⟨r, hr, e⟩ := h
    exact ⟨r, hre.rows.mem_iff.2 hr, e⟩
  · exact ⟨h.1, fun e => h.2 (by have := hre.rows; rw [e] at this; exact this.nil_eq.symm)⟩

/-- **C127, order of rows.** A table and the same table with its rows in another order: the metadata have the same cost and the same score for every series and every
fitted model with a formula that does not depend on where x starts. -/
theorem C127_order [IsStrictOrderedRing K] (w w' : World K) (args args' : RunArgs K) (id : String) (t t' : STable K) (hre : Reordered t t') (hp : Proper t)
    (s : String) (hs : IsSeries t id s) (res res' : RunResult K) (h : runForecast w args id t = .ok (some res))
    (h' : runForecast w' args' id t' = .ok (some res')) (hstart : args'.start = args.start) (hout : args.findOutliers = false) (hout' : args'.findOutliers = false)
    (m : ForecastModel K) (val : List K → Int → Timestamp → K) (hm : HasFormula m false val) (horig : NoOrigin m.nParams val)
    (reg : Registry K) (ht : CacheTransparent reg m)
    (hx : FitsExactly w args s (seriesFrame t s) m reg) (hx' : FitsExactly w' args' s (seriesFrame t' s) m reg)
    (hall : ∀ df' cand, candidates w.ch args.models df' (runFreq (seriesFrame t s)) = .ok cand → ∀ m1 ∈ cand.2, Unpinned m1)
    (hall' : ∀ df' cand, candidates w'.ch args'.models df' (runFreq (seriesFrame t' s)) = .ok cand → ∀ m1 ∈ cand.2, Unpinned m1)
    (score : Option K → Nat → Nat → Res (Ext K)) (haic : ∀ i, (w.env s i).aic = score) (haic' : ∀ i, (w'.env s i).aic = score)
    (b b' : MRow K) (hb : b ∈ (partOf t s res).metadata) (hbm : b.model = m.name) (hbf : b.isFit = true)
    (hb' : b' ∈ (partOf t' s res').metadata) (hbm' : b'.model = m.name) (hbf' : b'.isFit = true) : b'.cost = b.cost ∧ b'.aic = b.aic := by
  obtain ⟨e, c1, c2, i, i', c3, c4⟩ := C127_score w w' args args' id id t t' hp (proper_reordered t t' hre hp) s s hs (isSeries_reordered t t' hre id s hs) res res' h h'
    hout hout' 1 (by rw [hstart]; exact sameSamples_reordered _ t t' s hre) m val hm horig reg ht hx hx' hall hall' b b' hb hbm hbf hb' hbm' hbf'
  rw [haic] at c3
  rw [haic'] at c4
  rw [one_pow, one_mul] at c2 c4
  rw [c3] at c4
  exact ⟨c2.trans c1.symm, (Except.ok.inj c4).symm⟩

/-! ### A concrete case -/

/-- The series of `OnlyCounted`: four values of weight 2 between an ignored value and a gap; the same values without weights in another order. The cost is four times as large
with weights of 2. -/
example : ((runForecast meanWorld (demoArgs [modelConstant] (some [])) "p" patchyTable).toOption.bind fun r => r.map fun r =>
      (partOf patchyTable "p" r).metadata.map fun b => (b.model, b.isFit, b.cost)) = some [("constant", true, some 4)] ∧
    ((runForecast meanWorld (demoArgs [modelConstant] (some [])) "q" cleanTable).toOption.bind fun r => r.map fun r =>
      (partOf cleanTable "q" r).metadata.map fun b => (b.model, b.isFit, b.cost)) = some [("constant", true, some 1)] ∧
    (counted none patchyTable "p").length = 4 ∧ (counted none cleanTable "q").length = 4 := by decide +kernel

example : HasFormula (modelConstant : ForecastModel ℚ) false (combination levelFeatures) ∧ NoOrigin (modelConstant : ForecastModel ℚ).nParams (combination (levelFeatures (K := ℚ))) :=
  ⟨formula_constant false, noOrigin_dateOnly levelFeatures (by simp [levelFeatures])⟩

end Anticipy
