import Verif.Spec.Misfit
import Verif.Props.Weekly
import Verif.Props.Outliers
import Verif.Props.UnitModels
import Mathlib.Tactic.FieldSimp

/-
C73: the forecast of a linear trend, also with weekly seasonality, depends on nothing but the samples: not on the solver, its random starting point, the
cache, the other candidates, the horizon or the name of the series.
C74: it follows the data when their unit or zero point changes.
-/
namespace Anticipy
open Spec
variable {K : Type} [Field K] [LinearOrder K]

/-! ### Least squares fits of models that are linear in their parameters -/

/-- A successful fit with an exact solver has the smallest misfit of all admissible parameters. -/
theorem fit_minimal [IsStrictOrderedRing K] (env : Env K) (hmin : FindsMinimum env) (m : ForecastModel K) (df : Frame K)
    (actuals : Option (Frame K)) (c : Bool) (f : FitResult K) (hu : Unpinned m) (hn : m.nParams ≠ 0)
    (h : fitModel env m df actuals c = .ok f) (hf : f.isFit = true) (val : List K → Int → Timestamp → K)
    (reg : Registry K) (hreg : Registered env.globalCache reg m)
    (hg : ∀ (ctx : Ctx K) b p, CacheCorrect reg ctx.ax ctx.adate ctx.cache → ctx.ax = scaleX m ((usableRows df).map Row.x) →
      ctx.adate = (if df.hasDate then some ((usableRows df).map Row.date) else none) →
      m.fBounds ⟨some ctx.ax, some ((usableRows df).map fun r => r.y.getD 0), none⟩ = .ok b → Admissible p b →
      m.fModel ctx (some p) false = .ok (vecOf ((usableRows df).map fun r => val p r.x r.date))) :
    ∃ b, m.fBounds ⟨some (scaleX m ((usableRows df).map Row.x)), some ((usableRows df).map fun r => r.y.getD 0), none⟩ = .ok b ∧
      Admissible f.params b ∧ (∃ e, f.cost = some e ∧ e = misfit df (val f.params) / 2) ∧
      ∀ p, Admissible p b → misfit df (val f.params) ≤ misfit df (val p) := by
  obtain ⟨-, ctx, guess, b, r, h1, h2, h3, h4, h5, h6, h7, h8, hcache, -⟩ := fitModel_solver env m df actuals c f hu hn h hf
  obtain ⟨hadm, l, hl, hcost, hle⟩ := hmin _ _ _ _ h5 h6
  have hys : (prepare df).ys = (usableRows df).map fun r => r.y.getD 0 := by rw [prepare_eq]
  rw [hys] at h4
  have hres : ∀ p, Admissible p b → ∃ l, getResiduals m ctx (prepare df).ys (prepare df).ws (some p) = .ok (vecOf l) ∧ sumSq l = misfit df (val p) := by
    intro p hp
    refine ⟨_, by rw [C33_residuals m ctx df (some p) _ _ (hg ctx b p (hcache reg hreg) h1 h2 h4 hp) ⟨by simp, .inl rfl⟩], ?_⟩
    rw [List.zipWith_map_right, List.zipWith_self]
    unfold sumSq misfit
    rw [List.map_map]
    congr 1
    apply List.map_congr_left
    intro q _
    simp only [Function.comp_def, sq_abs]
  obtain ⟨l', e1, e2⟩ := hres r.params hadm
  rw [hl] at e1
  have e1 := Except.ok.inj e1
  simp only [vecOf, Arr.vec.injEq] at e1
  have e1 := List.map_injective_iff.2 (Option.some_injective _) e1
  subst e1
  refine ⟨b, by rw [← h1]; exact h4, by rw [h7]; exact hadm, ⟨_, by rw [h8, hcost], by rw [h7, e2]⟩, ?_⟩
  intro p hp
  obtain ⟨lp, e3, e4⟩ := hres p hp
  rw [h7, ← e2, ← e4]
  exact hle p lp hp e3

/-- Bounds are a box: half way between admissible parameters is admissible. -/
theorem admissible_halfway [IsStrictOrderedRing K] (p q : List K) (b : Bounds K) (hp : Admissible p b) (hq : Admissible q b) : Admissible (halfway p q) b := by
  obtain ⟨-, p1, p2, p3⟩ := hp
  obtain ⟨-, q1, q2, q3⟩ := hq
  have hl : p.length = q.length := by rw [← p1, q1]
  have hlen : (halfway p q).length = p.length := by simp [halfway, hl]
  refine ⟨by simp, by rw [hlen, p1], by rw [hlen, p2], ?_⟩
  intro i h1 h2 h3
  simp only [List.length_map] at h1
  have i1 : i < p.length := by omega
  have i2 : i < q.length := by omega
  have a := p3 i (by simpa using i1) h2 h3
  have b := q3 i (by simpa using i2) h2 h3
  simp only [List.getElem_map] at a b ⊢
  have he : (halfway p q)[i] = (p[i] + q[i]) / 2 := by simp [halfway]
  rw [he]
  obtain ⟨a1, a2⟩ := a
  obtain ⟨b1, b2⟩ := b
  constructor
  · cases hlo : (b : Bounds K).lo[i] <;> simp_all [Ext.le]
    linarith
  · cases hhi : (b : Bounds K).hi[i] <;> simp_all [Ext.le]
    linarith

theorem weight_ne_zero [IsStrictOrderedRing K] (df : Frame K) (q : Row K) (hq : q ∈ usableRows df) :
    weightOf df.hasWeight q / (sharing (usableRows df) q : K) ≠ 0 := by
  have hus : Usable df.hasWeight q := by simpa using (List.mem_filter.1 hq).2
  intro this
  rw [div_eq_zero_iff] at this
  rcases this with this | this
  · unfold weightOf at this
    split_ifs at this with hw
    · obtain ⟨w, e, hpos⟩ := hus.2 hw
      rw [e] at this
      exact absurd this hpos.ne'
    · exact one_ne_zero this
  · have : sharing (usableRows df) q = 0 := by exact_mod_cast this
    unfold sharing at this
    rw [List.countP_eq_zero] at this
    exact this q hq (by simp)

/-- The misfit of the mean of two predictions. -/
theorem misfit_mean [IsStrictOrderedRing K] (df : Frame K) (a b c : Int → Timestamp → K) (hc : ∀ x t, c x t = (a x t + b x t) / 2) :
    2 * misfit df c + 2 * ((usableRows df).map fun r => ((a r.x r.date - b r.x r.date) / 2 *
      (weightOf df.hasWeight r / (sharing (usableRows df) r : K))) ^ 2).sum = misfit df a + misfit df b := by
  unfold misfit
  have key : ∀ (l : List (Row K)) (w : Row K → K), 2 * (l.map fun r => ((r.y.getD 0 - c r.x r.date) * w r) ^ 2).sum +
      2 * (l.map fun r => ((a r.x r.date - b r.x r.date) / 2 * w r) ^ 2).sum =
      (l.map fun r => ((r.y.getD 0 - a r.x r.date) * w r) ^ 2).sum + (l.map fun r => ((r.y.getD 0 - b r.x r.date) * w r) ^ 2).sum := by
    intro l w
    induction l with
    | nil => simp
    | cons q l ih =>
      simp only [List.map_cons, List.sum_cons]
      rw [hc]
      have : 2 * ((q.y.getD 0 - (a q.x q.date + b q.x q.date) / 2) * w q) ^ 2 + 2 * ((a q.x q.date - b q.x q.date) / 2 * w q) ^ 2 =
          ((q.y.getD 0 - a q.x q.date) * w q) ^ 2 + ((q.y.getD 0 - b q.x q.date) * w q) ^ 2 := by
        field_simp
        ring
      linear_combination this + ih
  exact key _ _

/-- Two predictions whose mean is not better than either of them agree at all samples. -/
theorem misfit_unique [IsStrictOrderedRing K] (df : Frame K) (a b c : Int → Timestamp → K) (hc : ∀ x t, c x t = (a x t + b x t) / 2)
    (ha : misfit df a ≤ misfit df c) (hb : misfit df b ≤ misfit df c) : ∀ r ∈ usableRows df, a r.x r.date = b r.x r.date := by
  have h := misfit_mean df a b c hc
  have hz : sumSq ((usableRows df).map fun r => (a r.x r.date - b r.x r.date) / 2 *
      (weightOf df.hasWeight r / (sharing (usableRows df) r : K))) ≤ 0 := by
    unfold sumSq
    rw [List.map_map]
    simp only [Function.comp_def]
    linarith
  intro r hr
  have := sumSq_zero _ hz _ (List.mem_map.2 ⟨r, hr, rfl⟩)
  rcases mul_eq_zero.1 this with h | h
  · have : a r.x r.date - b r.x r.date = 0 := by
      rcases div_eq_zero_iff.1 h with h | h
      · exact h
      · exact absurd h two_ne_zero
    exact sub_eq_zero.1 this
  · exact absurd h (weight_ne_zero df r hr)

/-- **C73, fitted values.** Two successful fits of the same samples with exact solvers, whatever the starting point and with or without cached features:
they have the same cost and, if the model is linear in its parameters, the same value at every sample. The bounds of the parameters can be any box. -/
theorem C73_fitted [IsStrictOrderedRing K] (env env' : Env K) (hmin : FindsMinimum env) (hmin' : FindsMinimum env') (m : ForecastModel K) (df : Frame K)
    (actuals actuals' : Option (Frame K)) (c c' : Bool) (f f' : FitResult K) (hu : Unpinned m) (hn : m.nParams ≠ 0)
    (h : fitModel env m df actuals c = .ok f) (h' : fitModel env' m df actuals' c' = .ok f') (hf : f.isFit = true) (hf' : f'.isFit = true)
    (val : List K → Int → Timestamp → K) (reg : Registry K) (hreg : Registered env.globalCache reg m) (hreg' : Registered env'.globalCache reg m)
    (hg : ∀ (ctx : Ctx K) b p, CacheCorrect reg ctx.ax ctx.adate ctx.cache → ctx.ax = scaleX m ((usableRows df).map Row.x) →
      ctx.adate = (if df.hasDate then some ((usableRows df).map Row.date) else none) →
      m.fBounds ⟨some ctx.ax, some ((usableRows df).map fun r => r.y.getD 0), none⟩ = .ok b → Admissible p b →
      m.fModel ctx (some p) false = .ok (vecOf ((usableRows df).map fun r => val p r.x r.date))) :
    f.cost = f'.cost ∧ (Straight f.params.length val → ∀ r ∈ usableRows df, val f.params r.x r.date = val f'.params r.x r.date) := by
  obtain ⟨b, h1, h2, ⟨e, h3, h4⟩, h5⟩ := fit_minimal env hmin m df actuals c f hu hn h hf val reg hreg hg
  obtain ⟨b', h1', h2', ⟨e', h3', h4'⟩, h5'⟩ := fit_minimal env' hmin' m df actuals' c' f' hu hn h' hf' val reg hreg' hg
  rw [h1] at h1'
  have h1' := Except.ok.inj h1'
  subst h1'
  refine ⟨?_, ?_⟩
  · rw [h3, h3', h4, h4', le_antisymm (h5 _ h2') (h5' _ h2)]
  · intro hs
    have hl : f'.params.length = f.params.length := by rw [← h2.2.1, ← h2'.2.1]
    exact misfit_unique df _ _ (val (halfway f.params f'.params)) (fun x t => hs _ _ x t rfl hl) (h5 _ (admissible_halfway _ _ _ h2 h2'))
      (h5' _ (admissible_halfway _ _ _ h2 h2'))

/-! ### Values in another unit or with another zero point -/

theorem usableRows_rescaled (c d : K) (df : Frame K) :
    usableRows (rescaled c d df) = (usableRows df).map fun r => { r with y := r.y.map fun v => c * v + d } := by
  unfold usableRows rescaled
  dsimp only
  rw [List.filter_map]
  congr 1
  apply List.filter_congr
  intro r _
  obtain ⟨t, x, y, w⟩ := r
  cases y <;> simp [Function.comp_def, Usable]

theorem misfit_rescaled [IsStrictOrderedRing K] (c d : K) (df : Frame K) (a a' : Int → Timestamp → K) (ha : ∀ x t, a' x t = c * a x t + d) :
    misfit (rescaled c d df) a' = c ^ 2 * misfit df a := by
  unfold misfit
  have hsh : ∀ (l : List (Row K)) (r : Row K) (v : Option K), sharing (l.map fun r => { r with y := r.y.map fun v => c * v + d }) { r with y := v } = sharing l r := by
    intro l r v
    unfold sharing
    rw [List.countP_map]
    rfl
  rw [usableRows_rescaled, List.map_map, ← List.sum_map_mul_left]
  congr 1
  apply List.map_congr_left
  intro r hr
  simp only [Function.comp_def]
  rw [hsh, ha]
  have hus : Usable df.hasWeight r := by simpa using (List.mem_filter.1 hr).2
  obtain ⟨v, hv⟩ := hus.1
  have hw : weightOf (rescaled c d df).hasWeight { r with y := r.y.map fun v => c * v + d } = weightOf df.hasWeight r := rfl
  rw [hw, hv]
  simp only [Option.map_some, Option.getD_some]
  ring

/-- The parameters of the model can follow a change of unit and zero point. -/
def Spec.Follows (n : Nat) (val : List K → Int → Timestamp → K) : Prop :=
  ∀ c d, ∃ T : List K → List K, ∀ p, p.length = n → (T p).length = n ∧ ∀ x t, val (T p) x t = c * val p x t + d

/-- **C74, fitted values.** -/
theorem C74_fitted [IsStrictOrderedRing K] (env env' : Env K) (hmin : FindsMinimum env) (hmin' : FindsMinimum env') (m : ForecastModel K) (df : Frame K)
    (c d : K) (hc : c ≠ 0)
    (actuals actuals' : Option (Frame K)) (k k' : Bool) (f f' : FitResult K) (hu : Unpinned m) (hn : m.nParams ≠ 0)
    (h : fitModel env m df actuals k = .ok f) (h' : fitModel env' m (rescaled c d df) actuals' k' = .ok f') (hf : f.isFit = true) (hf' : f'.isFit = true)
    (val : List K → Int → Timestamp → K) (reg : Registry K) (hreg : Registered env.globalCache reg m) (hreg' : Registered env'.globalCache reg m)
    (hg : ∀ (ctx : Ctx K) p, CacheCorrect reg ctx.ax ctx.adate ctx.cache → ctx.ax = scaleX m ((usableRows df).map Row.x) →
      ctx.adate = (if df.hasDate then some ((usableRows df).map Row.date) else none) → p.length = m.nParams →
      m.fModel ctx (some p) false = .ok (vecOf ((usableRows df).map fun r => val p r.x r.date)))
    (hfree : ∀ args b p, m.fBounds args = .ok b → (Admissible p b ↔ p.length = m.nParams))
    (hs : Straight m.nParams val) (ht : Follows m.nParams val) :
    f.params.length = m.nParams ∧ f'.params.length = m.nParams ∧
    ∀ r ∈ usableRows df, val f'.params r.x r.date = c * val f.params r.x r.date + d := by
  obtain ⟨b, h1, h2, -, h5⟩ := fit_minimal env hmin m df actuals k f hu hn h hf val reg hreg (by
    intro ctx b p a1 a2 a3 a4 a5
    exact hg ctx p a1 a2 a3 ((hfree _ _ _ a4).1 a5))
  have hx : (usableRows (rescaled c d df)).map Row.x = (usableRows df).map Row.x := by rw [usableRows_rescaled, List.map_map]; rfl
  have hda : (usableRows (rescaled c d df)).map Row.date = (usableRows df).map Row.date := by rw [usableRows_rescaled, List.map_map]; rfl
  obtain ⟨b', h1', h2', -, h5'⟩ := fit_minimal env' hmin' m _ actuals' k' f' hu hn h' hf' val reg hreg' (by
    intro ctx b p a1 a2 a3 a4 a5
    rw [hx] at a2
    rw [hda] at a3
    rw [hg ctx p a1 a2 a3 ((hfree _ _ _ a4).1 a5), usableRows_rescaled, List.map_map]
    rfl)
  rw [hfree _ _ _ h1] at h2
  rw [hfree _ _ _ h1'] at h2'
  obtain ⟨T, hT⟩ := ht c d
  obtain ⟨S, hS⟩ := ht c⁻¹ (-(c⁻¹ * d))
  obtain ⟨t1, t2⟩ := hT _ h2
  have hm : (halfway (T f.params) f'.params).length = m.nParams := by simp [halfway, t1, h2']
  obtain ⟨s1, s2⟩ := hS _ hm
  have key := misfit_unique (rescaled c d df) (val (T f.params)) (val f'.params) (val (halfway (T f.params) f'.params)) (fun x t => hs _ _ x t t1 h2') (by
      rw [misfit_rescaled c d df _ _ t2, misfit_rescaled c d df (val (S (halfway (T f.params) f'.params))) (val (halfway (T f.params) f'.params)) (by
        intro x t
        rw [s2]
        field_simp
        ring)]
      exact mul_le_mul_of_nonneg_left (h5 _ ((hfree _ _ _ h1).2 s1)) (sq_nonneg c))
    (h5' _ ((hfree _ _ _ h1').2 hm))
  refine ⟨h2, h2', ?_⟩
  intro r hr
  have := key { r with y := r.y.map fun v => c * v + d } (by rw [usableRows_rescaled]; exact List.mem_map.2 ⟨r, hr, rfl⟩)
  rw [← t2]
  exact this.symm

/-! ### Whole runs -/

omit [LinearOrder K] in
theorem filterStart_rescaled (c d : K) (s : Option Timestamp) (df : Frame K) : filterStart s (rescaled c d df) = rescaled c d (filterStart s df) := by
  obtain ⟨hd, hw, rows⟩ := df
  cases s with
  | none => rfl
  | some t =>
    cases hd with
    | false => rfl
    | true =>
      simp only [filterStart, rescaled, if_true, List.filter_map]
      rfl

theorem applyOutliers_rescaled [FloorRing K] [IsStrictOrderedRing K] (c d : K) (hc : c ≠ 0) (find : Bool) (df : Frame K) :
    applyOutliers find (rescaled c d df) = (applyOutliers find df).map (rescaled c d) := by
  unfold applyOutliers
  cases find with
  | false => rfl
  | true =>
    simp only [if_true, bind, Except.bind]
    rw [C39_affine c d hc]
    cases getModelOutliers df 3 with
    | error e => rfl
    | ok masks =>
      simp only [Except.map, rescaled, List.zipWith_map_left, List.map_zipWith]
      rfl

theorem defaultWeights_rescaled (c d : K) (df : Frame K) : (defaultWeights (rescaled c d df)).1 = rescaled c d (defaultWeights df).1 := by
  obtain ⟨hd, hw, rows⟩ := df
  cases hw with
  | false =>
    simp only [defaultWeights, rescaled, Bool.false_eq_true, if_false, List.map_map]
    rfl
  | true => rfl

theorem usedRows_rescaled (c d : K) (df : Frame K) : usedRows (rescaled c d df) = rescaled c d (usedRows df) := by
  simp only [usedRows, rescaled, List.filter_map]
  rfl

/-- A model without bounds that is linear in its parameters, with predictions `val`, and determined by the samples of a fit (possibly only if they have the property `P`). -/
structure Spec.LinearInParameters (m : ForecastModel K) (reg : Registry K) (val : List K → Int → Timestamp → K)
    (P : Frame K → Prop := fun _ => True) : Prop where
  params : m.nParams ≠ 0
  free : ∀ args b p, m.fBounds args = .ok b → (Admissible p b ↔ p.length = m.nParams)
  value : ∀ (ctx : Ctx K) (xs : List Int) (ds : List Timestamp) p, ctx.ax = scaleX m xs → ctx.adate = some ds → xs.length = ds.length →
      p.length = m.nParams → CacheCorrect reg ctx.ax ctx.adate ctx.cache → xs ≠ [] → m.fModel ctx (some p) false = .ok (vecOf (List.zipWith (val p) xs ds))
  straight : Straight m.nParams val
  follows : Follows m.nParams val
  determined : ∀ (used : Frame K), P used → ∀ (p p0 : List K), p.length = m.nParams → p0.length = m.nParams → used.hasDate = true →
      (used.rows.map Row.x).Nodup → m.nParams + 2 ≤ (usableRows used).length → verdict m used = .ok true →
      (∀ r ∈ usableRows used, val p r.x r.date = val p0 r.x r.date) → ∀ x t, val p x t = val p0 x t

/-- Forecasts of a model that is linear in its parameters follow the data. -/
theorem follow_run [FloorRing K] [IsStrictOrderedRing K] (w w' : World K) (args args' : RunArgs K) (source source' : String) (df : Frame K) (c d : K)
    (hc : c ≠ 0) (res res' : RunResult K) (h : runSingle w args source df = .ok res) (h' : runSingle w' args' source' (rescaled c d df) = .ok res')
    (hstart : args'.start = args.start) (hout : args'.findOutliers = args.findOutliers)
    (hmin : ∀ i, FindsMinimum (w.env source i)) (hmin' : ∀ i, FindsMinimum (w'.env source' i))
    (m : ForecastModel K) (hu : Unpinned m) (reg : Registry K) (val : List K → Int → Timestamp → K) {P : Frame K → Prop} (hm : LinearInParameters m reg val P)
    (hreg : ∀ i, Registered (w.env source i).globalCache reg m) (hreg' : ∀ i, Registered (w'.env source' i).globalCache reg m)
    (hcand : ∀ df' cand, candidates w.ch args.models df' (runFreq df) = .ok cand → ∀ m' ∈ cand.2, m'.name = m.name → m' = m)
    (hcand' : ∀ df' cand, candidates w'.ch args'.models df' (runFreq df) = .ok cand → ∀ m' ∈ cand.2, m'.name = m.name → m' = m)
    (hdate : df.hasDate = true) (t0 : Timestamp) (hdays : CountsDays df t0) (hnd : (df.rows.map Row.x).Nodup)
    (r r' : DRow K) (hr : r ∈ res.data) (hr' : r' ∈ res'.data) (hact : r.isActuals = false) (hact' : r'.isActuals = false)
    (hname : r.model = m.name) (hname' : r'.model = m.name) (hsame : r'.date = r.date)
    (hP : ∀ df2, applyOutliers args.findOutliers (filterStart args.start df) = .ok df2 → P (usedRows (defaultWeights df2).1) := by intros; trivial) :
    ∃ v, r.y = some v ∧ r'.y = some (c * v + d) := by
  have hlen : ∀ (env : Env K), FindsMinimum env → ∀ (used : Frame K) act cc f, fitModel env m used act cc = .ok f → f.isFit = true →
      f.params.length = m.nParams := by
    intro env he used act cc f e hf
    obtain ⟨-, ctx, guess, b, r, -, -, -, h4, h5, h6, h7, -⟩ := fitModel_solver _ m _ _ _ f hu hm.params e hf
    rw [h7]
    exact (hm.free _ _ _ h4).1 (he _ _ _ _ h5 h6).1
  have hval := fun (ctx : Ctx K) xs ds p h1 h2 h3 h4 (h5 : ∀ k, ctx.cache k = none) h6 =>
    hm.value ctx xs ds p h1 h2 h3 h4 (by intro k v hk; rw [h5] at hk; cases hk) h6
  have hfreq : runFreq (rescaled c d df) = runFreq df := by
    unfold runFreq
    have : (rescaled c d df).rows.map Row.date = df.rows.map Row.date := by simp [rescaled, Function.comp_def]
    have h1 : (rescaled c d df).hasDate = df.hasDate := rfl
    rw [this, h1]
  obtain ⟨df2, i, f, act, hOut, e2, hfit, hy⟩ := row_value w args source df res h m hcand val hval
    (fun i used act f e hf => hlen _ (hmin i) used act _ f e hf) hdate t0 hdays r hr hact hname
  obtain ⟨df2', i', f', act', hOut', e2', hfit', hy'⟩ := row_value w' args' source' _ res' h' m (by rw [hfreq]; exact hcand') val hval
    (fun i used act f e hf => hlen _ (hmin' i) used act _ f e hf) hdate t0 (by
      intro q hq
      obtain ⟨q0, h1, rfl⟩ := List.mem_map.1 hq
      exact hdays q0 h1) r' hr' hact' hname'
  rw [hstart, hout, filterStart_rescaled, applyOutliers_rescaled c d hc, hOut] at hOut'
  have hOut' := (Except.ok.inj hOut').symm
  subst hOut'
  rw [defaultWeights_rescaled, usedRows_rescaled] at e2'
  obtain ⟨u1, u2, u3, u4, u5⟩ := used_rows args.findOutliers args.start df df2 hOut
  have hPu := hP df2 hOut
  generalize hused : usedRows (defaultWeights df2).1 = used at e2 e2' u1 u2 u5 hPu
  have hsub : (used.rows.map Row.x).Sublist (df.rows.map Row.x) := by
    have h1 : (used.rows.map Row.x).Sublist ((defaultWeights df2).1.rows.map Row.x) := by
      rw [← hused]
      exact List.Sublist.map _ List.filter_sublist
    rw [u4] at h1
    exact h1.trans (List.Sublist.map _ List.filter_sublist)
  have hst := (C30_status _ m used _ _ f e2).2.2
  have hlong := hst.1.1 (.inl (hst.2.2.1 hfit))
  have hudate : used.hasDate = true := by rw [u1, hdate]
  obtain ⟨l1, l2, hfv⟩ := C74_fitted _ _ (hmin i) (hmin' i') m used c d hc _ _ _ _ f f' hu hm.params e2 e2' hfit hfit' val reg (hreg i) (hreg' i') (by
    intro ctx p a1 a2 a3 a4
    rw [hudate, if_pos rfl] at a3
    rw [hm.value ctx _ _ p a2 a3 (by simp) a4 a1 (fit_nonempty _ m used _ _ f e2 hfit), List.zipWith_map, List.zipWith_self]) hm.free hm.straight hm.follows
  obtain ⟨T, hT⟩ := hm.follows c d
  obtain ⟨t1, t2⟩ := hT _ l1
  refine ⟨_, hy, ?_⟩
  rw [hy', hsame, ← t2]
  congr 1
  refine hm.determined used hPu _ _ l2 t1 hudate (hsub.nodup hnd) hlong.1 hlong.2 ?_ _ _
  intro q hq
  rw [hfv q hq, t2]

/-! ### The linear trend and the weekly pattern -/

def lineValue (p : List K) (x : Int) (_ : Timestamp) : K := p.getD 0 0 * (x : K) + p.getD 1 0

omit [LinearOrder K] in
theorem two_params (p : List K) (h : p.length = 2) : ∃ a b, p = [a, b] := by
  match p, h with
  | [a, b], _ => exact ⟨a, b, rfl⟩

theorem linear_inParameters [IsStrictOrderedRing K] : LinearInParameters (modelLinear : ForecastModel K) (fun _ => none) lineValue where
  params := by simp [modelLinear, mkModel]
  free := by
    intro args b p hb
    have hb := (Except.ok.inj hb).symm
    subst hb
    exact admissible_default 2 p _
  value := by
    intro ctx xs ds p h1 h2 h3 h4 _ _
    obtain ⟨a, b, rfl⟩ := two_params p h4
    have hsc : scaleX (modelLinear : ForecastModel K) xs = xs.map fun x : Int => (x : K) := by
      unfold scaleX
      rw [if_neg]
      simp [modelLinear, mkModel]
    rw [hsc] at h1
    simp only [modelLinear, mkModel, fModelLinear, unpack2, bind, Except.bind, h1, List.map_map]
    congr 2
    have : ∀ (xs : List Int) (ds : List Timestamp), xs.length = ds.length →
        xs.map ((fun x => a * x + b) ∘ fun x : Int => (x : K)) = List.zipWith (lineValue [a, b]) xs ds := by
      intro xs
      induction xs with
      | nil => intro ds _; rfl
      | cons x xs ih =>
        intro ds hl
        cases ds with
        | nil => cases hl
        | cons t ds =>
          rw [List.map_cons, ih ds (by simpa using hl)]
          rfl
    exact this xs ds h3
  straight := by
    intro p q x t hp hq
    obtain ⟨a, b, rfl⟩ := two_params p hp
    obtain ⟨a', b', rfl⟩ := two_params q hq
    simp only [halfway, lineValue, List.zipWith_cons_cons, List.zipWith_nil_left, List.getD_cons_zero, List.getD_cons_succ]
    ring
  follows := by
    intro c d
    refine ⟨fun p => [c * p.getD 0 0, c * p.getD 1 0 + d], ?_⟩
    intro p hp
    refine ⟨rfl, ?_⟩
    intro x t
    simp only [lineValue, List.getD_cons_zero, List.getD_cons_succ]
    ring
  determined := by
    intro used _ p p0 hp hp0 hd hnd hl hv he x t
    obtain ⟨a, b, rfl⟩ := two_params p hp
    obtain ⟨a', b', rfl⟩ := two_params p0 hp0
    have h2 : 2 ≤ (usableRows used).length := by
      have : (modelLinear : ForecastModel K).nParams = 2 := rfl
      omega
    have hnd' : ((usableRows used).map Row.x).Nodup := hnd.sublist (List.Sublist.map _ List.filter_sublist)
    match hus : usableRows used, h2 with
    | q :: q' :: l, _ =>
      rw [hus] at he hnd'
      have hne : (q.x : K) ≠ (q'.x : K) := by
        have : q.x ≠ q'.x := by
          simp only [List.map_cons, List.nodup_cons, List.mem_cons, not_or] at hnd'
          exact hnd'.1.1
        exact_mod_cast this
      obtain ⟨r1, r2⟩ := line_unique a b a' b' _ _ hne (he q (by simp)) (he q' (by simp))
      rw [r1, r2]

theorem weekly_unpinned : Unpinned (weeklyModel : ForecastModel K) := by
  intro ar bd hb p hp v
  rw [weekly_bounds ar bd hb] at hp
  have : p = ((Ext.ninf : Ext K), (Ext.pinf : Ext K)) := by simpa using hp
  simp [this]

omit [LinearOrder K] in
/-- The value for a weekday as a sum that is linear in the parameters. -/
theorem weeklyValue_mem (a b s1 s2 s3 s4 s5 s6 : K) (x : Int) (t : Timestamp) : weeklyValue [a, b, s1, s2, s3, s4, s5, s6] x t = a * (x : K) + b +
    (if weekday t = 1 then s1 else if weekday t = 2 then s2 else if weekday t = 3 then s3 else if weekday t = 4 then s4 else if weekday t = 5 then s5 else
      if weekday t = 6 then s6 else 0) := by
  have h7 := weekday_range t
  unfold weeklyValue
  have : weekday t = 0 ∨ weekday t = 1 ∨ weekday t = 2 ∨ weekday t = 3 ∨ weekday t = 4 ∨ weekday t = 5 ∨ weekday t = 6 := by omega
  rcases this with e | e | e | e | e | e | e <;> simp [e]

theorem weekly_inParameters [IsStrictOrderedRing K] : LinearInParameters (weeklyModel : ForecastModel K) weeklyReg weeklyValue where
  params := by rw [weekly_nParams]; simp
  free := by
    intro args b p hb
    rw [weekly_bounds args b hb, weekly_nParams]
    exact admissible_default 8 p _
  value := by
    intro ctx xs ds p h1 h2 h3 h4 h5 _
    rw [weekly_nParams] at h4
    refine weekly_fModel ctx xs ds p ?_ h2 h3 h4 h5
    rw [h1]
    unfold scaleX
    rw [if_neg]
    rw [weekly_name]
    simp
  straight := by
    intro p q x t hp hq
    rw [weekly_nParams] at hp hq
    obtain ⟨a, b, s1, s2, s3, s4, s5, s6, rfl⟩ := weekly_params p hp
    obtain ⟨a', b', s1', s2', s3', s4', s5', s6', rfl⟩ := weekly_params q hq
    simp only [halfway, List.zipWith_cons_cons, List.zipWith_nil_left, weeklyValue_mem]
    split_ifs <;> ring
  follows := by
    intro c d
    refine ⟨fun p => (c * p.getD 0 0) :: (c * p.getD 1 0 + d) :: (p.drop 2).map fun s => c * s, ?_⟩
    intro p hp
    rw [weekly_nParams] at hp
    obtain ⟨a, b, s1, s2, s3, s4, s5, s6, rfl⟩ := weekly_params p hp
    refine ⟨by rw [weekly_nParams]; rfl, ?_⟩
    intro x t
    simp only [List.getD_cons_zero, List.getD_cons_succ, List.drop_succ_cons, List.drop_zero, List.map_cons, List.map_nil, weeklyValue_mem]
    split_ifs <;> ring
  determined := by
    intro used _ p p0 hp hp0 hd hnd hl hv he x t
    rw [weekly_nParams] at hp hp0 hl
    exact weekly_determined used p p0 hp hp0 hd hnd hl hv he x t

theorem weekly_registered (g : String → Option (CacheFn K)) (hcache : ∀ f, g "a_weekday" = some f → f = cacheWeekday) :
    Registered g weeklyReg (weeklyModel : ForecastModel K) := by
  refine registered_compose _ _ _ _ _ ⟨by simp [modelLinear, mkModel], by simp [modelLinear, mkModel]⟩ ⟨?_, by simp [modelSeasonWday, mkModel]⟩
  intro k hk f hf
  have : k = "a_weekday" := by simpa [modelSeasonWday, mkModel] using hk
  subst this
  rw [hcache f hf]
  rfl

/-- **C74.** Dated series with one sample per coordinate, values in another unit and with another zero point (`c * y + d`, `c` not zero): the forecasts
of the linear trend for the same date change in the same way. The two runs can differ in the solver and its random numbers, cache, candidates, mode,
horizon, output options and name; they agree in the starting date and in whether outliers are searched. Both solvers find the minimum. -/
theorem C74_line [FloorRing K] [IsStrictOrderedRing K] (w w' : World K) (args args' : RunArgs K) (source source' : String) (df : Frame K) (c d : K)
    (hc : c ≠ 0) (res res' : RunResult K) (h : runSingle w args source df = .ok res) (h' : runSingle w' args' source' (rescaled c d df) = .ok res')
    (hstart : args'.start = args.start) (hout : args'.findOutliers = args.findOutliers)
    (hmin : ∀ i, FindsMinimum (w.env source i)) (hmin' : ∀ i, FindsMinimum (w'.env source' i))
    (hcand : ∀ df' cand, candidates w.ch args.models df' (runFreq df) = .ok cand → ∀ m ∈ cand.2, m.name = "linear" → m = modelLinear)
    (hcand' : ∀ df' cand, candidates w'.ch args'.models df' (runFreq df) = .ok cand → ∀ m ∈ cand.2, m.name = "linear" → m = modelLinear)
    (hdate : df.hasDate = true) (t0 : Timestamp) (hdays : CountsDays df t0) (hnd : (df.rows.map Row.x).Nodup)
    (r r' : DRow K) (hr : r ∈ res.data) (hr' : r' ∈ res'.data) (hact : r.isActuals = false) (hact' : r'.isActuals = false)
    (hname : r.model = "linear") (hname' : r'.model = "linear") (hsame : r'.date = r.date) :
    ∃ v, r.y = some v ∧ r'.y = some (c * v + d) := by
  refine follow_run w w' args args' source source' df c d hc res res' h h' hstart hout hmin hmin' modelLinear linear_unpinned (fun _ => none) lineValue
    linear_inParameters ?_ ?_ hcand hcand' hdate t0 hdays hnd r r' hr hr' hact hact' hname hname' hsame
  all_goals
    intro i
    constructor <;> simp [modelLinear, mkModel]

/-- **C74, weekly.** The same for the linear trend with weekly seasonality. -/
theorem C74_weekly [FloorRing K] [IsStrictOrderedRing K] (w w' : World K) (args args' : RunArgs K) (source source' : String) (df : Frame K) (c d : K)
    (hc : c ≠ 0) (res res' : RunResult K) (h : runSingle w args source df = .ok res) (h' : runSingle w' args' source' (rescaled c d df) = .ok res')
    (hstart : args'.start = args.start) (hout : args'.findOutliers = args.findOutliers)
    (hmin : ∀ i, FindsMinimum (w.env source i)) (hmin' : ∀ i, FindsMinimum (w'.env source' i))
    (hcache : ∀ i f, (w.env source i).globalCache "a_weekday" = some f → f = cacheWeekday)
    (hcache' : ∀ i f, (w'.env source' i).globalCache "a_weekday" = some f → f = cacheWeekday)
    (hcand : ∀ df' cand, candidates w.ch args.models df' (runFreq df) = .ok cand → ∀ m ∈ cand.2, m.name = "(linear+season_wday)" →
      m = modelLinear.add modelSeasonWday)
    (hcand' : ∀ df' cand, candidates w'.ch args'.models df' (runFreq df) = .ok cand → ∀ m ∈ cand.2, m.name = "(linear+season_wday)" →
      m = modelLinear.add modelSeasonWday)
    (hdate : df.hasDate = true) (t0 : Timestamp) (hdays : CountsDays df t0) (hnd : (df.rows.map Row.x).Nodup)
    (r r' : DRow K) (hr : r ∈ res.data) (hr' : r' ∈ res'.data) (hact : r.isActuals = false) (hact' : r'.isActuals = false)
    (hname : r.model = "(linear+season_wday)") (hname' : r'.model = "(linear+season_wday)") (hsame : r'.date = r.date) :
    ∃ v, r.y = some v ∧ r'.y = some (c * v + d) :=
  follow_run w w' args args' source source' df c d hc res res' h h' hstart hout hmin hmin' weeklyModel weekly_unpinned weeklyReg weeklyValue
    weekly_inParameters (fun i => weekly_registered _ (hcache i)) (fun i => weekly_registered _ (hcache' i)) (by rw [weekly_name]; exact hcand)
    (by rw [weekly_name]; exact hcand') hdate t0 hdays hnd r r' hr hr' hact hact' (by rw [weekly_name]; exact hname) (by rw [weekly_name]; exact hname') hsame

omit [LinearOrder K] in
theorem rescaled_same (df : Frame K) : rescaled (1 : K) 0 df = df := by
  obtain ⟨a, b, rows⟩ := df
  simp [rescaled]

/-- **C73.** The forecast of the linear trend for a date depends on nothing but the samples, the starting date and whether outliers are searched: two runs
agree on it whatever the solver and its random numbers, the cache, the other candidates, the mode, the horizon, the output options and the name. -/
theorem C73_line [FloorRing K] [IsStrictOrderedRing K] (w w' : World K) (args args' : RunArgs K) (source source' : String) (df : Frame K)
    (res res' : RunResult K) (h : runSingle w args source df = .ok res) (h' : runSingle w' args' source' df = .ok res')
    (hstart : args'.start = args.start) (hout : args'.findOutliers = args.findOutliers)
    (hmin : ∀ i, FindsMinimum (w.env source i)) (hmin' : ∀ i, FindsMinimum (w'.env source' i))
    (hcand : ∀ df' cand, candidates w.ch args.models df' (runFreq df) = .ok cand → ∀ m ∈ cand.2, m.name = "linear" → m = modelLinear)
    (hcand' : ∀ df' cand, candidates w'.ch args'.models df' (runFreq df) = .ok cand → ∀ m ∈ cand.2, m.name = "linear" → m = modelLinear)
    (hdate : df.hasDate = true) (t0 : Timestamp) (hdays : CountsDays df t0) (hnd : (df.rows.map Row.x).Nodup)
    (r r' : DRow K) (hr : r ∈ res.data) (hr' : r' ∈ res'.data) (hact : r.isActuals = false) (hact' : r'.isActuals = false)
    (hname : r.model = "linear") (hname' : r'.model = "linear") (hsame : r'.date = r.date) : r'.y = r.y := by
  obtain ⟨v, e1, e2⟩ := C74_line w w' args args' source source' df 1 0 one_ne_zero res res' h (by rw [rescaled_same]; exact h') hstart hout hmin hmin'
    hcand hcand' hdate t0 hdays hnd r r' hr hr' hact hact' hname hname' hsame
  rw [e1, e2, one_mul, add_zero]

/-- **C73, weekly.** The same for the linear trend with weekly seasonality. -/
theorem C73_weekly [FloorRing K] [IsStrictOrderedRing K] (w w' : World K) (args args' : RunArgs K) (source source' : String) (df : Frame K)
    (res res' : RunResult K) (h : runSingle w args source df = .ok res) (h' : runSingle w' args' source' df = .ok res')
    (hstart : args'.start = args.start) (hout : args'.findOutliers = args.findOutliers)
    (hmin : ∀ i, FindsMinimum (w.env source i)) (hmin' : ∀ i, FindsMinimum (w'.env source' i))
    (hcache : ∀ i f, (w.env source i).globalCache "a_weekday" = some f → f = cacheWeekday)
    (hcache' : ∀ i f, (w'.env source' i).globalCache "a_weekday" = some f → f = cacheWeekday)
    (hcand : ∀ df' cand, candidates w.ch args.models df' (runFreq df) = .ok cand → ∀ m ∈ cand.2, m.name = "(linear+season_wday)" →
      m = modelLinear.add modelSeasonWday)
    (hcand' : ∀ df' cand, candidates w'.ch args'.models df' (runFreq df) = .ok cand → ∀ m ∈ cand.2, m.name = "(linear+season_wday)" →
      m = modelLinear.add modelSeasonWday)
    (hdate : df.hasDate = true) (t0 : Timestamp) (hdays : CountsDays df t0) (hnd : (df.rows.map Row.x).Nodup)
    (r r' : DRow K) (hr : r ∈ res.data) (hr' : r' ∈ res'.data) (hact : r.isActuals = false) (hact' : r'.isActuals = false)
    (hname : r.model = "(linear+season_wday)") (hname' : r'.model = "(linear+season_wday)") (hsame : r'.date = r.date) : r'.y = r.y := by
  obtain ⟨v, e1, e2⟩ := C74_weekly w w' args args' source source' df 1 0 one_ne_zero res res' h (by rw [rescaled_same]; exact h') hstart hout hmin hmin'
    hcache hcache' hcand hcand' hdate t0 hdays hnd r r' hr hr' hact hact' hname hname' hsame
  rw [e1, e2, one_mul, add_zero]

/-! ### Concrete runs -/

/-- The series of the example for C69 in another unit, upside down. -/
def flippedWorld : World ℚ := { demoWorld with env := fun _ _ => knownEnv [-6, 2] }

/-- Other candidates and another horizon. -/
def flippedArgs : RunArgs ℚ := { demoArgs [modelLinear] (some [modelNaive stableSort]) with years := 5 / 365, useCache := true }

example : ∀ i, FindsMinimum (flippedWorld.env "t" i) := fun _ => knownEnv_minimum _

example : ((runSingle flippedWorld flippedArgs "t" (rescaled (-3) 5 lineFrame)).toOption.map fun r =>
    (r.data.filter fun q => !q.isActuals && q.model == "linear").map fun q => (q.date / DAY, q.y)) =
    some [(5, some (-3 * 3 + 5)), (6, some (-3 * 5 + 5)), (7, some (-3 * 7 + 5)), (8, some (-3 * 9 + 5)), (9, some (-3 * 11 + 5)),
      (10, some (-3 * 13 + 5)), (11, some (-3 * 15 + 5)), (12, some (-3 * 17 + 5)), (13, some (-3 * 19 + 5)), (14, some (-3 * 21 + 5))] := by decide +kernel

/-- The weekly series with a level of 100 more. -/
def liftedWorld : World ℚ := { demoWorld with env := fun _ _ => { knownEnv [1 / 2, 110, 0, -1, 0, 0, 3, 0] with
  globalCache := fun k => if k = "a_weekday" then some cacheWeekday else none } }

example : ((runSingle liftedWorld weeklyArgs "s" (rescaled 1 100 weeklyFrame)).toOption.map fun r =>
    ((r.data.filter fun q => !q.isActuals).drop 15).map fun q => (q.date / DAY, q.model, q.y)) =
    some [(19, "(linear+season_wday)", some (35 / 2 + 100)), (20, "(linear+season_wday)", some (17 + 100)), (21, "(linear+season_wday)", some (37 / 2 + 100)),
      (22, "(linear+season_wday)", some (19 + 100))] := by decide +kernel

end Anticipy
