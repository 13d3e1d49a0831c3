import Verif.Spec.Recovery
import Verif.Props.RunValues
import Verif.Props.Fit
import Verif.Props.Extrapolate
import Verif.Props.CacheValidate
import Mathlib.Tactic.LinearCombination
import Mathlib.Tactic.Linarith
import Mathlib.Tactic.NormNum

/-
C69: data that a model describes exactly are reproduced, and a straight line is continued.
-/
namespace Anticipy
open Spec
variable {K : Type} [Field K] [LinearOrder K]

/-- A successful fit of a model with parameters is the result of one call of the solver. -/
theorem fitModel_solver (env : Env K) (m : ForecastModel K) (df : Frame K) (actuals : Option (Frame K)) (c : Bool) (f : FitResult K)
    (hu : Unpinned m) (hn : m.nParams ≠ 0) (h : fitModel env m df actuals c = .ok f) (hf : f.isFit = true) :
    m.nParams + 2 ≤ (usableRows df).length ∧ ∃ (ctx : Ctx K) (guess : List (Ext K)) (b : Bounds K) (r : LsqResult K),
      ctx.ax = scaleX m ((usableRows df).map Row.x) ∧
      ctx.adate = (if df.hasDate then some ((usableRows df).map Row.date) else none) ∧ ctx.actuals = actuals ∧
      m.fBounds ⟨some ctx.ax, some (prepare df).ys, none⟩ = .ok b ∧
      env.lsq (fun p => getResiduals m ctx (prepare df).ys (prepare df).ws (some p)) guess b = .ok (some r) ∧ r.success = true ∧
      f.params = r.params ∧ f.cost = r.cost ∧ (∀ reg, Registered env.globalCache reg m → CacheCorrect reg ctx.ax ctx.adate ctx.cache) ∧
      (if c then m.initCache env.globalCache ctx.ax ctx.adate else .ok fun _ => none) = .ok ctx.cache ∧
      ctx.hasCache = (c && m.usesCache env.globalCache) ∧ env.aic f.cost (usableRows df).length m.nParams = .ok f.aic := by
  have hst := (C30_status env m df actuals c f h).2.2
  have hfit : f.status = .fit := hst.2.2.1 hf
  have hlong := hst.1.1 (.inl hfit)
  refine ⟨hlong.1, ?_⟩
  obtain ⟨rng, h1⟩ := fitModel_long env m df actuals c hlong.1
  rw [h1, hlong.2] at h
  simp only [Bind.bind, Except.bind, Bool.not_true, Bool.false_eq_true, if_false] at h
  cases h3 : simplifyModel env.label m ⟨some (scaleX m (prepare df).xs), some (prepare df).ys, (prepare df).dates⟩ with
  | error e => rw [h3] at h; cases h
  | ok m' =>
    rw [h3] at h
    dsimp only at h
    have := simplify_unpinned _ _ _ _ hu h3
    subst this
    unfold attemptFit at h
    rw [if_neg hn] at h
    simp only [bind, Except.bind] at h
    cases h4 : optimizeLeastSquares env m' (scaleX m' (prepare df).xs) (prepare df).ys (prepare df).dates (prepare df).ws actuals c with
    | error e => rw [h4] at h; cases h
    | ok r =>
      rw [h4] at h
      dsimp only at h
      cases h5 : env.aic r.cost (prepare df).xs.length m'.nParams with
      | error e => rw [h5] at h; cases h
      | ok a =>
        rw [h5] at h
        cases h
        unfold optimizeLeastSquares at h4
        simp only [bind, Except.bind] at h4
        cases g1 : m'.fInit env.rnd ⟨some (scaleX m' (prepare df).xs), some (prepare df).ys, none⟩ false with
        | error e => rw [g1] at h4; cases h4
        | ok guess =>
          rw [g1] at h4
          dsimp only at h4
          cases g2 : m'.fBounds ⟨some (scaleX m' (prepare df).xs), some (prepare df).ys, none⟩ with
          | error e => rw [g2] at h4; cases h4
          | ok b =>
            rw [g2] at h4
            dsimp only at h4
            cases g3 : pyAssert (validateInitialGuess guess b) with
            | error e => rw [g3] at h4; cases h4
            | ok u =>
              rw [g3] at h4
              dsimp only at h4
              have h4 : ∃ cache o, env.lsq (fun p => getResiduals m' { ax := scaleX m' (prepare df).xs, adate := (prepare df).dates, actuals := actuals, cache := cache, hasCache := c && m'.usesCache env.globalCache } (prepare df).ys (prepare df).ws (some p)) guess b = .ok o ∧
                  r = o.getD ⟨false, none, []⟩ ∧ (∀ reg, Registered env.globalCache reg m' →
                    CacheCorrect reg (scaleX m' (prepare df).xs) (prepare df).dates cache) ∧
                  (if c then m'.initCache env.globalCache (scaleX m' (prepare df).xs) (prepare df).dates else .ok fun _ => none) = .ok cache := by
                split_ifs at h4 with hcc
                · cases g4 : m'.initCache env.globalCache (scaleX m' (prepare df).xs) (prepare df).dates with
                  | error e => rw [g4] at h4; cases h4
                  | ok cache =>
                    rw [g4] at h4
                    dsimp only at h4
                    refine ⟨cache, ?_⟩
                    cases g5 : env.lsq (fun p => getResiduals m' { ax := scaleX m' (prepare df).xs, adate := (prepare df).dates, actuals := actuals, cache := cache, hasCache := c && m'.usesCache env.globalCache } (prepare df).ys (prepare df).ws (some p)) guess b with
                    | error e => rw [g5] at h4; cases h4
                    | ok o =>
                      rw [g5] at h4
                      cases o with
                      | none => exact ⟨_, rfl, (Except.ok.inj h4).symm, fun reg hreg => initCache_correct _ _ _ hreg _ _ _ g4, by rw [if_pos hcc]⟩
                      | some r' => exact ⟨_, rfl, (Except.ok.inj h4).symm, fun reg hreg => initCache_correct _ _ _ hreg _ _ _ g4, by rw [if_pos hcc]⟩
                · refine ⟨fun _ => none, ?_⟩
                  cases g5 : env.lsq (fun p => getResiduals m' { ax := scaleX m' (prepare df).xs, adate := (prepare df).dates, actuals := actuals, cache := fun _ => none, hasCache := c && m'.usesCache env.globalCache } (prepare df).ys (prepare df).ws (some p)) guess b with
                  | error e => rw [g5] at h4; cases h4
                  | ok o =>
                    rw [g5] at h4
                    cases o with
                    | none => exact ⟨_, rfl, (Except.ok.inj h4).symm, fun reg _ k v hk => absurd hk (by simp), by rw [if_neg hcc]⟩
                    | some r' => exact ⟨_, rfl, (Except.ok.inj h4).symm, fun reg _ k v hk => absurd hk (by simp), by rw [if_neg hcc]⟩
              obtain ⟨cache, o, g5, hr, hcache, hcc⟩ := h4
              generalize hctx : ({ ax := scaleX m' (prepare df).xs, adate := (prepare df).dates, actuals := actuals, cache := cache, hasCache := c && m'.usesCache env.globalCache } :
                  Ctx K) = ctx at g5
              have hx : ctx.ax = scaleX m' (prepare df).xs := by rw [← hctx]
              have hp : (prepare df).xs = (usableRows df).map Row.x := by rw [prepare_eq]
              have hda : (prepare df).dates = (if df.hasDate then some ((usableRows df).map Row.date) else none) := by rw [prepare_eq]
              subst hr
              cases o with
              | none => cases hf
              | some r' =>
                exact ⟨ctx, guess, b, r', by rw [hx, hp], by rw [← hctx]; exact hda, by rw [← hctx], by rw [hx]; exact g2, g5, hf, rfl, rfl,
                  by rw [← hctx]; exact hcache, by rw [← hctx]; exact hcc, by rw [← hctx], by rw [hp, List.length_map] at h5; exact h5⟩

theorem sumSq_nonneg [IsStrictOrderedRing K] (l : List K) : 0 ≤ sumSq l := by
  unfold sumSq
  apply List.sum_nonneg
  intro a ha
  obtain ⟨e, -, rfl⟩ := List.mem_map.1 ha
  exact sq_nonneg e

theorem sumSq_zero [IsStrictOrderedRing K] (l : List K) (h : sumSq l ≤ 0) : ∀ e ∈ l, e = 0 := by
  induction l with
  | nil => simp
  | cons a l ih =>
    have h1 := sumSq_nonneg l
    have h2 := sq_nonneg a
    have h3 : sumSq (a :: l) = a ^ 2 + sumSq l := rfl
    rw [h3] at h
    intro e he
    rcases List.mem_cons.1 he with rfl | he
    · have : e ^ 2 = 0 := by linarith
      exact pow_eq_zero_iff (two_ne_zero) |>.1 this
    · exact ih (by linarith) e he

/-- **C69, reproduction.** If some admissible parameters of a model describe all samples exactly, then the parameters of a successful fit with an
exact solver describe all samples exactly too. `g p r` is the value of the model for sample `r`; `reg` gives the meaning of the names of cached features. -/
theorem C69_reproduced [IsStrictOrderedRing K] (env : Env K) (hmin : FindsMinimum env) (m : ForecastModel K) (df : Frame K)
    (actuals : Option (Frame K)) (c : Bool) (f : FitResult K) (hu : Unpinned m) (hn : m.nParams ≠ 0)
    (h : fitModel env m df actuals c = .ok f) (hf : f.isFit = true) (g : List K → Row K → K)
    (reg : Registry K) (hreg : Registered env.globalCache reg m)
    (hg : ∀ (ctx : Ctx K) b p, CacheCorrect reg ctx.ax ctx.adate ctx.cache → ctx.ax = scaleX m ((usableRows df).map Row.x) →
      ctx.adate = (if df.hasDate then some ((usableRows df).map Row.date) else none) → ctx.actuals = actuals →
      m.fBounds ⟨some ctx.ax, some (prepare df).ys, none⟩ = .ok b → Admissible p b →
      m.fModel ctx (some p) false = .ok (vecOf ((usableRows df).map (g p))))
    (p0 : List K) (hb : ∀ args b, m.fBounds args = .ok b → Admissible p0 b)
    (hexact : ∀ r ∈ usableRows df, r.y = some (g p0 r)) :
    (∃ args b, m.fBounds args = .ok b ∧ Admissible f.params b) ∧ ∀ r ∈ usableRows df, r.y = some (g f.params r) := by
  obtain ⟨-, ctx, guess, b, r, h1, h2, h3, h4, h5, h6, h7, -, hcache, -⟩ := fitModel_solver env m df actuals c f hu hn h hf
  obtain ⟨hadm, l, hl, -, hle⟩ := hmin _ _ _ _ h5 h6
  have hres : ∀ p, Admissible p b → getResiduals m ctx (prepare df).ys (prepare df).ws (some p) =
      .ok (vecOf ((usableRows df).map fun r => |(r.y.getD 0 - g p r) * (weightOf df.hasWeight r / (sharing (usableRows df) r : K))|)) := by
    intro p hp
    rw [C33_residuals m ctx df (some p) _ _ (hg ctx b p (hcache reg hreg) h1 h2 h3 h4 hp) ⟨by simp, .inl rfl⟩]
    congr 2
    rw [List.zipWith_map_right, List.zipWith_self]
  have hp0 := hb _ _ h4
  have hr := hres r.params hadm
  rw [hl] at hr
  have hr := Except.ok.inj hr
  simp only [vecOf, Arr.vec.injEq] at hr
  have hr := List.map_injective_iff.2 (Option.some_injective _) hr
  have h0 := hle p0 _ hp0 (hres p0 hp0)
  have hz : sumSq ((usableRows df).map fun r => |(r.y.getD 0 - g p0 r) * (weightOf df.hasWeight r / (sharing (usableRows df) r : K))|) = 0 := by
    unfold sumSq
    rw [List.map_map]
    apply List.sum_eq_zero
    intro x hx
    obtain ⟨q, hq, rfl⟩ := List.mem_map.1 hx
    simp [hexact q hq]
  rw [hz] at h0
  have hall := sumSq_zero l h0
  refine ⟨⟨_, b, h4, by rw [h7]; exact hadm⟩, ?_⟩
  intro q hq
  have := hall _ (by rw [hr]; exact List.mem_map.2 ⟨q, hq, rfl⟩)
  rw [abs_eq_zero, mul_eq_zero] at this
  have hus : Usable df.hasWeight q := by simpa using (List.mem_filter.1 hq).2
  rcases this with this | this
  · obtain ⟨v, hv⟩ := hus.1
    rw [hv] at this ⊢
    rw [h7, Option.some.injEq]
    exact sub_eq_zero.1 this
  · exfalso
    rw [div_eq_zero_iff] at this
    rcases this with this | this
    · unfold weightOf at this
      split_ifs at this with hw
      · obtain ⟨w, e, hpos⟩ := hus.2 hw
        rw [e] at this
        exact absurd this hpos.ne'
      · exact one_ne_zero this
    · have : sharing (usableRows df) q = 0 := by exact_mod_cast this
      unfold sharing at this
      rw [List.countP_eq_zero] at this
      exact this q hq (by simp)

/-! ### Samples used in a run -/

/-- The samples used in a run come from the samples on or after the starting date, with the given positive weights. -/
theorem used_rows [FloorRing K] [IsStrictOrderedRing K] (find : Bool) (start : Option Timestamp) (df df2 : Frame K)
    (h : applyOutliers find (filterStart start df) = .ok df2) :
    (usedRows (defaultWeights df2).1).hasDate = df.hasDate ∧ (usedRows (defaultWeights df2).1).hasWeight = true ∧
    (defaultWeights df2).1.rows.map Row.date = (kept start df).map Row.date ∧ (defaultWeights df2).1.rows.map Row.x = (kept start df).map Row.x ∧
    (∀ r ∈ (usedRows (defaultWeights df2).1).rows, ∃ q ∈ kept start df, r.date = q.date ∧ r.x = q.x ∧ r.y = q.y ∧
      ∃ w, givenWeight df q = some w ∧ 0 < w) := by
  obtain ⟨spike, hlen, -, -, e⟩ := weights_stage find _ df2 h
  rw [filterStart_rows] at e hlen
  have hgw : ∀ q, givenWeight { df with rows := kept start df } q = givenWeight df q := fun q => rfl
  have hmap : ∀ {α : Type} (g : Row K → α), (∀ (r : Row K) w, g { r with weight := w } = g r) →
      (weighted { df with rows := kept start df } spike).rows.map g = (kept start df).map g := by
    intro α g hg
    unfold weighted
    dsimp only at hlen ⊢
    rw [List.map_zipWith]
    simp only [hg]
    clear e
    generalize kept start df = l at hlen
    induction l generalizing spike with
    | nil => rfl
    | cons a l ih =>
      cases spike with
      | nil => cases hlen
      | cons b spike =>
        rw [List.zipWith_cons_cons, List.map_cons, ih spike (by simpa using hlen)]
  rw [e]
  refine ⟨rfl, rfl, hmap _ (fun _ _ => rfl), hmap _ (fun _ _ => rfl), ?_⟩
  intro r hr
  unfold usedRows weighted at hr
  dsimp only at hr
  obtain ⟨hr1, hr2⟩ := List.mem_filter.1 hr
  rw [decide_eq_true_iff] at hr2
  obtain ⟨w, hw, hpos⟩ := hr2
  obtain ⟨i, hi, rfl⟩ := List.mem_iff_getElem.1 hr1
  rw [List.getElem_zipWith] at hw ⊢
  refine ⟨_, List.getElem_mem _, rfl, rfl, rfl, ?_⟩
  dsimp only at hw
  rw [hgw] at hw
  cases hgiven : givenWeight df ((kept start df)[i]'(by simp at hi; omega)) with
  | none => rw [hgiven] at hw; cases hw
  | some v =>
    rw [hgiven] at hw
    simp only [Option.map_some, Option.mem_def, Option.some.injEq] at hw
    refine ⟨v, rfl, ?_⟩
    split_ifs at hw
    · subst hw; exact absurd hpos (lt_irrefl _)
    · rw [hw]; exact hpos

omit [LinearOrder K] in
/-- Two linear functions that agree at two points are equal. -/
theorem line_unique (a b a' b' x x' : K) (hx : x ≠ x') (h : a * x + b = a' * x + b') (h' : a * x' + b = a' * x' + b') : a = a' ∧ b = b' := by
  have h1 : (a - a') * (x - x') = 0 := by linear_combination h - h'
  have h2 : a = a' := by
    rcases mul_eq_zero.1 h1 with e | e
    · exact sub_eq_zero.1 e
    · exact absurd (sub_eq_zero.1 e) hx
  subst h2
  exact ⟨rfl, by linear_combination h⟩

theorem linear_unpinned : Unpinned (modelLinear : ForecastModel K) := by
  intro args b hb p hp v
  have hb := Except.ok.inj hb
  subst hb
  have : p ∈ [((Ext.ninf : Ext K), (Ext.pinf : Ext K)), (.ninf, .pinf)] := by simpa using hp
  simp only [List.mem_cons, List.not_mem_nil, or_false, or_self] at this
  simp [this]

/-- A linear model fitted to samples on a line with an exact solver has the parameters of the line. -/
theorem fit_line [IsStrictOrderedRing K] (env : Env K) (hmin : FindsMinimum env) (df : Frame K) (actuals : Option (Frame K)) (c : Bool)
    (f : FitResult K) (h : fitModel env modelLinear df actuals c = .ok f) (hf : f.isFit = true) (a b : K)
    (hnd : ((usableRows df).map Row.x).Nodup) (hline : ∀ r ∈ usableRows df, r.y = some (a * (r.x : K) + b)) : f.params = [a, b] := by
  have hlong := (fitModel_solver env modelLinear df actuals c f linear_unpinned (by simp [modelLinear, mkModel]) h hf).1
  have hsc : ∀ l : List Int, scaleX (modelLinear : ForecastModel K) l = l.map fun x : Int => (x : K) := by
    intro l
    unfold scaleX
    rw [if_neg]
    simp [modelLinear, mkModel]
  have hadm : ∀ (args : InitArgs K) bd (p : List K), modelLinear.fBounds args = .ok bd → Admissible p bd → ∃ u v, p = [u, v] := by
    intro args bd p hb hp
    have hb := Except.ok.inj hb
    subst hb
    have hl := hp.2.1
    match p, hl with
    | [u, v], _ => exact ⟨u, v, rfl⟩
    | [], hl => simp at hl
    | [_], hl => simp at hl
    | _ :: _ :: _ :: _, hl => simp at hl
  have hin : ∀ (args : InitArgs K) bd, modelLinear.fBounds args = .ok bd → Admissible [a, b] bd := by
    intro args bd hb
    have hb := Except.ok.inj hb
    subst hb
    refine ⟨rfl, rfl, rfl, ?_⟩
    intro i h1 h2 h3
    simp only [List.getElem_replicate, List.getElem_map]
    exact ⟨rfl, rfl⟩
  obtain ⟨⟨args, bd, hb, hp⟩, hrep⟩ := C69_reproduced env hmin modelLinear df actuals c f linear_unpinned (by simp [modelLinear, mkModel]) h hf
    (fun p r => p.getD 0 0 * (r.x : K) + p.getD 1 0) (fun _ => none) (by constructor <;> simp [modelLinear, mkModel]) (by
      intro ctx bd p _ h1 h2 h3 h4 h5
      obtain ⟨u, v, rfl⟩ := hadm _ _ _ h4 h5
      rw [hsc] at h1
      simp only [modelLinear, mkModel, fModelLinear, unpack2, bind, Except.bind, h1, List.map_map]
      rfl) [a, b] hin (by intro r hr; simpa using hline r hr)
  obtain ⟨u, v, e⟩ := hadm _ _ _ hb hp
  rw [e] at hrep ⊢
  have h2 : 2 ≤ (usableRows df).length := by
    have : (modelLinear : ForecastModel K).nParams = 2 := rfl
    omega
  match hu : usableRows df, h2 with
  | q :: q' :: l, _ =>
    rw [hu] at hrep hline hnd
    have e1 := hrep q (by simp)
    have e2 := hrep q' (by simp)
    rw [hline q (by simp)] at e1
    rw [hline q' (by simp)] at e2
    have hne : (q.x : K) ≠ (q'.x : K) := by
      have : q.x ≠ q'.x := by
        simp only [List.map_cons, List.nodup_cons, List.mem_cons, not_or] at hnd
        exact hnd.1.1
      exact_mod_cast this
    obtain ⟨r1, r2⟩ := line_unique a b u v _ _ hne (by simpa using e1) (by simpa using e2)
    rw [r1, r2]

/-- **C69.** Daily (or coarser) dated series: if all samples from the starting date on that have a value and positive weight lie on a line, then every
forecast row of the linear trend lies on this line, at all dates, with the coordinate that counts days like the samples do. The solver must find the minimum. -/
theorem C69_line [FloorRing K] [IsStrictOrderedRing K] (w : World K) (args : RunArgs K) (source : String) (df : Frame K) (res : RunResult K)
    (h : runSingle w args source df = .ok res) (hmin : ∀ i, FindsMinimum (w.env source i))
    (hlin : ∀ df' cand, candidates w.ch args.models df' (runFreq df) = .ok cand → ∀ m ∈ cand.2, m.name = "linear" → m = modelLinear)
    (hdate : df.hasDate = true) (t0 : Timestamp) (hdays : CountsDays df t0) (hnd : (df.rows.map Row.x).Nodup) (a b : K)
    (hline : OnLine { df with rows := kept args.start df } a b) (r : DRow K) (hr : r ∈ res.data) (hact : r.isActuals = false)
    (hm : r.model = "linear") :
    r.y = some (a * (((r.date - t0) / (24 * 60 * 60 * 1000000000) : Int) : K) + b) := by
  obtain ⟨d, hd, hdata, -, -⟩ := runSingle_inv w args source df res h
  obtain ⟨st⟩ := runFits_stages w args source df d hd
  have hd1 : d.1 = _ := congrArg Prod.fst st.hd
  have hr1 : r ∈ d.1 := by
    rw [hdata] at hr
    unfold selectFits at hr
    split_ifs at hr
    · exact hr
    · exact (List.mem_filter.1 hr).1
  rw [hd1] at hr1
  obtain ⟨q, hq, rfl⟩ := List.mem_map.1 hr1
  rcases List.mem_append.1 hq with hq | hq
  · unfold actualsClean at hq
    obtain ⟨q', -, rfl⟩ := List.mem_map.1 hq
    cases hact
  · obtain ⟨k, m, f, rows, e1, e2, e3, e4⟩ := (fitLoop_spec _ _ _ _ _ st.hFits).2.2 q hq
    obtain ⟨-, -, -, hname, -, hfit, -⟩ := forecastRows_mem _ _ _ _ e3 q e4
    have hmm : m = modelLinear := hlin _ _ st.hCand m (List.mem_of_getElem? e1) (by rw [← hname]; exact hm)
    subst hmm
    obtain ⟨u1, u2, u3, u4, u5⟩ := used_rows args.findOutliers args.start df st.df2 st.hOut
    simp only [mkSetup] at e2 e3
    generalize hused : usedRows (defaultWeights st.df2).1 = used at e2 e3 u1 u2 u5
    have hsub : (used.rows.map Row.x).Sublist (df.rows.map Row.x) := by
      have h1 : (used.rows.map Row.x).Sublist ((defaultWeights st.df2).1.rows.map Row.x) := by
        rw [← hused]
        exact List.Sublist.map _ List.filter_sublist
      rw [u4] at h1
      exact h1.trans (List.Sublist.map _ List.filter_sublist)
    have hus : ∀ q ∈ usableRows used, q ∈ used.rows := fun q hq => (List.mem_filter.1 hq).1
    have hpar := fit_line _ (hmin _) used _ _ f e2 hfit a b
      ((hsub.nodup hnd).sublist (List.Sublist.map _ List.filter_sublist)) (by
        intro q hq
        obtain ⟨q', h1, -, h3, h4, h5⟩ := u5 q (hus q hq)
        have hu : Usable used.hasWeight q := by simpa using (List.mem_filter.1 hq).2
        obtain ⟨v, hv⟩ := hu.1
        rw [hv, h3, hline q' h1 h5 v (by rw [← h4]; exact hv)])
    unfold forecastRows at e3
    rw [if_pos hfit] at e3
    dsimp only at e3
    have hdd : ∀ q ∈ used.rows, q.date = t0 + q.x * (24 * 60 * 60 * 1000000000) := by
      intro q hq
      obtain ⟨q', h1, h2, h3, -⟩ := u5 q hq
      rw [h2, h3]
      exact hdays q' (List.mem_filter.1 h1).1
    cases h1 : listMin (axisOf used) with
    | none => rw [h1] at e3; cases e3
    | some start =>
      cases h2 : listMin (used.rows.map Row.x) with
      | none => rw [h1, h2] at e3; cases e3
      | some x0 =>
        rw [h1, h2] at e3
        have hstart : start = t0 + x0 * (24 * 60 * 60 * 1000000000) := by
          unfold axisOf at h1
          rw [u1, hdate, if_pos rfl] at h1
          obtain ⟨m1, l1⟩ := (listMin_some _ _).1 h1
          obtain ⟨m2, l2⟩ := (listMin_some _ _).1 h2
          obtain ⟨q1, n1, rfl⟩ := List.mem_map.1 m1
          obtain ⟨q2, n2, rfl⟩ := List.mem_map.1 m2
          have a1 := l1 _ (List.mem_map.2 ⟨q2, n2, rfl⟩)
          have a2 := l2 _ (List.mem_map.2 ⟨q1, n1, rfl⟩)
          have b1 := hdd q1 n1
          have b2 := hdd q2 n2
          omega
        dsimp only at e3
        simp only [bind, Except.bind] at e3
        cases h3 : extrapolate modelLinear f.params used.hasDate start ((listMax (axisOf (defaultWeights st.df2).1)).getD 0)
            (runFreq df) args.years x0 st.actuals with
        | error e => rw [h3] at e3; cases e3
        | ok l =>
          rw [h3] at e3
          have e3 := Except.ok.inj e3
          rw [← e3] at e4
          unfold fcastClean at e4
          obtain ⟨p, hp, rfl⟩ := List.mem_map.1 e4
          have hp := (List.mem_filter.1 hp).1
          unfold extrapolate at h3
          rw [u1, hdate, hpar] at h3
          simp only [if_true, bind, Except.bind] at h3
          cases h4 : sxExtrapolateDate start ((listMax (axisOf (defaultWeights st.df2).1)).getD 0) (runFreq df) args.years x0 with
          | error e => rw [h4] at h3; cases h3
          | ok sx =>
            rw [h4] at h3
            obtain ⟨dates, hsx⟩ := sxExtrapolateDate_x _ _ _ _ _ _ h4
            subst hsx
            have hsc : ∀ l : List Int, scaleX (modelLinear : ForecastModel K) l = l.map fun x : Int => (x : K) := by
              intro l
              unfold scaleX
              rw [if_neg]
              simp [modelLinear, mkModel]
            simp only [hsc] at h3
            simp only [modelLinear, mkModel, fModelLinear, unpack2, bind, Except.bind, seriesOf, vecOf, List.map_map, List.length_map, if_true] at h3
            have h3 := Except.ok.inj h3
            rw [← h3, List.zip_map', List.mem_map] at hp
            obtain ⟨t, -, rfl⟩ := hp
            simp only [flagData, Function.comp_def, DAY, HOUR]
            rw [hstart]
            congr 5
            omega

/-! ### A concrete run -/

/-- A solver that knows one answer; it fails unless this is a perfect fit of an unbounded model with that many parameters. -/
def knownEnv (p : List ℚ) : Env ℚ :=
  { demoEnv with
    lsq := fun f _ b => match f p with
      | .ok (.vec l) => if (l.all fun e => decide (e = some 0)) = true ∧ b.lo = List.replicate p.length .ninf ∧ b.hi = List.replicate p.length .pinf then
          .ok (some ⟨true, some 0, p⟩) else .ok none
      | _ => .ok none }

theorem knownEnv_minimum (p : List ℚ) : FindsMinimum (knownEnv p) := by
  intro f guess b r h hs
  simp only [knownEnv] at h
  cases e : f p with
  | error x => rw [e] at h; cases h
  | ok v =>
    rw [e] at h
    cases v with
    | scalar c => cases h
    | vec l =>
      dsimp only at h
      by_cases hc : (l.all fun e => decide (e = some 0)) = true ∧ b.lo = List.replicate p.length .ninf ∧ b.hi = List.replicate p.length .pinf
      swap
      · rw [if_neg hc] at h; cases h
      rw [if_pos hc] at h
      cases h
      obtain ⟨h1, h2, h3⟩ := hc
      have hl : l = List.replicate l.length (some 0) := by
        apply List.eq_replicate_of_mem
        intro x hx
        have := List.all_eq_true.1 h1 x hx
        simpa using this
      refine ⟨⟨by simp, by rw [h2]; simp, by rw [h3]; simp, ?_⟩, List.replicate l.length 0, ?_, by simp [sumSq], ?_⟩
      · intro i hg hl' hh
        simp only [h2, h3, List.getElem_replicate, List.getElem_map]
        exact ⟨rfl, rfl⟩
      · rw [e, vecOf, List.map_replicate, ← hl]
      · intro p l' _ _
        have : sumSq (List.replicate l.length (0 : ℚ)) = 0 := by simp [sumSq]
        rw [this]
        exact sumSq_nonneg l'

/-- Monday to Saturday on the line `2 x + 1`; one value is missing, the first sample lies elsewhere but has weight zero. -/
def lineFrame : Frame ℚ := ⟨true, true, [⟨4 * DAY, 0, some 50, some 0⟩, ⟨5 * DAY, 1, some 3, some 1⟩, ⟨6 * DAY, 2, some 5, some 1⟩, ⟨7 * DAY, 3, none, some 1⟩,
  ⟨8 * DAY, 4, some 9, some 2⟩, ⟨9 * DAY, 5, some 11, some 1⟩]⟩

def lineWorld : World ℚ := { demoWorld with env := fun _ _ => knownEnv [2, 1] }

example : CountsDays lineFrame (4 * DAY) ∧ (lineFrame.rows.map Row.x).Nodup ∧ OnLine lineFrame 2 1 := by
  refine ⟨?_, by decide +kernel, ?_⟩
  · unfold CountsDays
    decide +kernel
  · intro r hr hw v hv
    simp only [lineFrame, List.mem_cons, List.not_mem_nil, or_false] at hr
    rcases hr with rfl | rfl | rfl | rfl | rfl | rfl
    · simp [givenWeight, lineFrame] at hw
    all_goals simp at hv
    all_goals subst hv; norm_num

example : ((runSingle lineWorld (demoArgs [modelLinear, modelConstant] (some [])) "s" lineFrame).toOption.map fun r =>
    r.metadata.map fun q => (q.model, q.isFit, q.params)) = some [("constant", false, []), ("linear", true, [2, 1])] := by decide +kernel

example : ((runSingle lineWorld (demoArgs [modelLinear, modelConstant] (some [])) "s" lineFrame).toOption.map fun r =>
    (r.data.filter fun q => !q.isActuals).map fun q => (q.date / DAY, q.model, q.y)) =
    some [(5, "linear", some 3), (6, "linear", some 5), (7, "linear", some 7), (8, "linear", some 9), (9, "linear", some 11), (10, "linear", some 13),
      (11, "linear", some 15), (12, "linear", some 17)] := by decide +kernel

end Anticipy
