import Verif.Spec.Superposition
import Verif.Props.Unique
import Mathlib.Tactic.Positivity

/-
C75: the forecast of a total is the total of the forecasts (linear trend, alone or with weekly seasonality).
-/
namespace Anticipy
open Spec
variable {K : Type} [Field K] [LinearOrder K]

/-- Weighted sum of the product of the errors of predictions `a` with `b`, over the samples of `df` with values `f`. -/
def errorProduct (df : Frame K) (f : Int → K) (a b : Int → Timestamp → K) : K :=
  ((usableRows df).map fun r => (f r.x - a r.x r.date) * b r.x r.date * (weightOf df.hasWeight r / (sharing (usableRows df) r : K)) ^ 2).sum

theorem usableRows_valued (f : Int → K) (df : Frame K) :
    usableRows (valued f df) = (usableRows df).map fun r => { r with y := r.y.map fun _ => f r.x } := by
  unfold usableRows valued
  dsimp only
  rw [List.filter_map]
  congr 1
  apply List.filter_congr
  intro r _
  obtain ⟨t, x, y, w⟩ := r
  cases y <;> simp [Function.comp_def, Usable]

theorem misfit_valued (f : Int → K) (df : Frame K) (a : Int → Timestamp → K) :
    misfit (valued f df) a = ((usableRows df).map fun r => ((f r.x - a r.x r.date) * (weightOf df.hasWeight r / (sharing (usableRows df) r : K))) ^ 2).sum := by
  unfold misfit
  have hsh : ∀ (l : List (Row K)) (r : Row K) (v : Option K), sharing (l.map fun r => { r with y := r.y.map fun _ => f r.x }) { r with y := v } = sharing l r := by
    intro l r v
    unfold sharing
    rw [List.countP_map]
    rfl
  rw [usableRows_valued, List.map_map]
  congr 1
  apply List.map_congr_left
  intro r hr
  simp only [Function.comp_def]
  rw [hsh]
  have hus : Usable df.hasWeight r := by simpa using (List.mem_filter.1 hr).2
  obtain ⟨v, hv⟩ := hus.1
  have hw : weightOf (valued f df).hasWeight { r with y := r.y.map fun _ => f r.x } = weightOf df.hasWeight r := rfl
  rw [hw, hv]
  simp only [Option.map_some, Option.getD_some]

/-- The normal equations: the errors of a least squares fit are orthogonal to all predictions of the model. -/
theorem normal_equations [IsStrictOrderedRing K] (df : Frame K) (f : Int → K) (a b : Int → Timestamp → K)
    (h : ∀ s : K, misfit (valued f df) a ≤ misfit (valued f df) (fun x t => a x t + s * b x t)) : errorProduct df f a b = 0 := by
  have key : ∀ (l : List (Row K)) (w : Row K → K) (s : K), (l.map fun r => ((f r.x - (a r.x r.date + s * b r.x r.date)) * w r) ^ 2).sum =
      (l.map fun r => ((f r.x - a r.x r.date) * w r) ^ 2).sum - 2 * s * (l.map fun r => (f r.x - a r.x r.date) * b r.x r.date * (w r) ^ 2).sum +
      s ^ 2 * (l.map fun r => (b r.x r.date * w r) ^ 2).sum := by
    intro l w s
    induction l with
    | nil => simp
    | cons q l ih =>
      simp only [List.map_cons, List.sum_cons]
      rw [ih]
      ring
  set N := errorProduct df f a b with hN
  set Q := ((usableRows df).map fun r => (b r.x r.date * (weightOf df.hasWeight r / (sharing (usableRows df) r : K))) ^ 2).sum with hQ
  have hQ0 : 0 ≤ Q := by
    apply List.sum_nonneg
    intro e he
    obtain ⟨r, -, rfl⟩ := List.mem_map.1 he
    exact sq_nonneg _
  have h1 := h (N / (Q + 1))
  rw [misfit_valued, misfit_valued, key _ (fun r => weightOf df.hasWeight r / (sharing (usableRows df) r : K))] at h1
  have h2 : 2 * (N / (Q + 1)) * N ≤ (N / (Q + 1)) ^ 2 * Q := by
    have : errorProduct df f a b = N := rfl
    unfold errorProduct at this
    rw [this] at h1
    linarith
  have hp : 0 < Q + 1 := by linarith
  have h3 : 2 * N ^ 2 * (Q + 1) ≤ N ^ 2 * Q := by
    have e1 : 2 * (N / (Q + 1)) * N * (Q + 1) ^ 2 = 2 * N ^ 2 * (Q + 1) := by
      field_simp
    have e2 : (N / (Q + 1)) ^ 2 * Q * (Q + 1) ^ 2 = N ^ 2 * Q := by
      field_simp
    rw [← e1, ← e2]
    exact mul_le_mul_of_nonneg_right h2 (sq_nonneg _)
  have h4 : N ^ 2 * (Q + 2) ≤ 0 := by linarith
  by_contra hne
  have : 0 < N ^ 2 := by positivity
  have : 0 < N ^ 2 * (Q + 2) := mul_pos this (by linarith)
  linarith

/-- **C75, fitted values.** Three successful fits with exact solvers over the same samples, with values `u`, `v` and `a * u + b * v`: the fitted values
of the third are the same combination of the fitted values of the others. -/
theorem C75_fitted [IsStrictOrderedRing K] (env env' env'' : Env K) (hmin : FindsMinimum env) (hmin' : FindsMinimum env') (hmin'' : FindsMinimum env'')
    (m : ForecastModel K) (df : Frame K) (u v : Int → K) (a b : K) (act act' act'' : Option (Frame K)) (k k' k'' : Bool) (f f' f'' : FitResult K)
    (hu : Unpinned m) (hn : m.nParams ≠ 0) (h : fitModel env m (valued u df) act k = .ok f) (h' : fitModel env' m (valued v df) act' k' = .ok f')
    (h'' : fitModel env'' m (valued (fun x => a * u x + b * v x) df) act'' k'' = .ok f'') (hf : f.isFit = true) (hf' : f'.isFit = true)
    (hf'' : f''.isFit = true) (val : List K → Int → Timestamp → K) (reg : Registry K) (hreg : Registered env.globalCache reg m)
    (hreg' : Registered env'.globalCache reg m) (hreg'' : Registered env''.globalCache reg m)
    (hg : ∀ (ctx : Ctx K) p, CacheCorrect reg ctx.ax ctx.adate ctx.cache → ctx.ax = scaleX m ((usableRows df).map Row.x) →
      ctx.adate = (if df.hasDate then some ((usableRows df).map Row.date) else none) → p.length = m.nParams →
      m.fModel ctx (some p) false = .ok (vecOf ((usableRows df).map fun r => val p r.x r.date)))
    (hfree : ∀ args b p, m.fBounds args = .ok b → (Admissible p b ↔ p.length = m.nParams)) (hl : LinearPrediction m.nParams val) :
    f.params.length = m.nParams ∧ f'.params.length = m.nParams ∧ f''.params.length = m.nParams ∧
    ∀ r ∈ usableRows df, val f''.params r.x r.date = a * val f.params r.x r.date + b * val f'.params r.x r.date := by
  have normal : ∀ (env : Env K) (g : Int → K) act k (f : FitResult K), FindsMinimum env → fitModel env m (valued g df) act k = .ok f → f.isFit = true →
      Registered env.globalCache reg m → f.params.length = m.nParams ∧ ∀ q : List K, q.length = m.nParams → errorProduct df g (val f.params) (val q) = 0 := by
    intro env g act k f hmin h hf hreg
    have hx : (usableRows (valued g df)).map Row.x = (usableRows df).map Row.x := by rw [usableRows_valued, List.map_map]; rfl
    have hda : (usableRows (valued g df)).map Row.date = (usableRows df).map Row.date := by rw [usableRows_valued, List.map_map]; rfl
    obtain ⟨b, h1, h2, -, h5⟩ := fit_minimal env hmin m _ act k f hu hn h hf val reg hreg (by
      intro ctx b p a1 a2 a3 a4 a5
      rw [hx] at a2
      rw [hda] at a3
      rw [hg ctx p a1 a2 a3 ((hfree _ _ _ a4).1 a5), usableRows_valued, List.map_map]
      rfl)
    rw [hfree _ _ _ h1] at h2
    refine ⟨h2, ?_⟩
    intro q hq
    apply normal_equations
    intro s
    have : (fun x t => val f.params x t + s * val q x t) = val (combined s f.params q) := by
      funext x t
      rw [hl s _ _ x t h2 hq]
    rw [this]
    apply h5
    rw [hfree _ _ _ h1]
    simp [combined, h2, hq]
  obtain ⟨l1, n1⟩ := normal env u act k f hmin h hf hreg
  obtain ⟨l2, n2⟩ := normal env' v act' k' f' hmin' h' hf' hreg'
  obtain ⟨l3, n3⟩ := normal env'' _ act'' k'' f'' hmin'' h'' hf'' hreg''
  refine ⟨l1, l2, l3, ?_⟩
  -- the zero vector, the combination and its difference to the third fit
  have hzero : ∀ x t, val (combined (-1) f.params f.params) x t = 0 := by
    intro x t
    rw [hl _ _ _ x t l1 l1]
    ring
  have lz : (combined (-1) f.params f.params).length = m.nParams := by simp [combined, l1]
  obtain ⟨p, hp, hpv⟩ : ∃ p : List K, p.length = m.nParams ∧ ∀ x t, val p x t = a * val f.params x t + b * val f'.params x t := by
    refine ⟨combined b (combined a (combined (-1) f.params f.params) f.params) f'.params, by simp [combined, l1, l2], ?_⟩
    intro x t
    rw [hl _ _ _ x t (by simp [combined, l1]) l2, hl _ _ _ x t lz l1, hzero]
    ring
  have hq : (combined (-1) p f''.params).length = m.nParams := by simp [combined, hp, l3]
  have hqv : ∀ x t, val (combined (-1) p f''.params) x t = a * val f.params x t + b * val f'.params x t - val f''.params x t := by
    intro x t
    rw [hl _ _ _ x t hp l3, hpv]
    ring
  have e1 := n1 _ hq
  have e2 := n2 _ hq
  have e3 := n3 _ hq
  have hz : sumSq ((usableRows df).map fun r => (a * val f.params r.x r.date + b * val f'.params r.x r.date - val f''.params r.x r.date) *
      (weightOf df.hasWeight r / (sharing (usableRows df) r : K))) = 0 := by
    have key : ∀ (l : List (Row K)) (w d : Row K → K) (x1 x2 : Row K → K) (v1 v2 v3 : Row K → K), (∀ r, d r = a * v1 r + b * v2 r - v3 r) →
        (l.map fun r => ((a * v1 r + b * v2 r - v3 r) * w r) ^ 2).sum = (l.map fun r => (a * x1 r + b * x2 r - v3 r) * d r * (w r) ^ 2).sum -
          a * (l.map fun r => (x1 r - v1 r) * d r * (w r) ^ 2).sum - b * (l.map fun r => (x2 r - v2 r) * d r * (w r) ^ 2).sum := by
      intro l w d x1 x2 v1 v2 v3 hd
      induction l with
      | nil => simp
      | cons q l ih =>
        simp only [List.map_cons, List.sum_cons]
        rw [ih, hd]
        ring
    have := key (usableRows df) (fun r => weightOf df.hasWeight r / (sharing (usableRows df) r : K)) (fun r => val (combined (-1) p f''.params) r.x r.date)
      (fun r => u r.x) (fun r => v r.x) (fun r => val f.params r.x r.date) (fun r => val f'.params r.x r.date) (fun r => val f''.params r.x r.date)
      (fun r => hqv _ _)
    unfold errorProduct at e1 e2 e3
    rw [e1, e2, e3] at this
    unfold sumSq
    rw [List.map_map]
    simp only [Function.comp_def]
    rw [this]
    ring
  intro r hr
  have := sumSq_zero _ hz.le _ (List.mem_map.2 ⟨r, hr, rfl⟩)
  rcases mul_eq_zero.1 this with h | h
  · exact (sub_eq_zero.1 h).symm
  · exact absurd h (weight_ne_zero df r hr)

/-! ### Whole runs -/

omit [LinearOrder K] in
theorem filterStart_valued (f : Int → K) (s : Option Timestamp) (df : Frame K) : filterStart s (valued f df) = valued f (filterStart s df) := by
  obtain ⟨hd, hw, rows⟩ := df
  cases s with
  | none => rfl
  | some t =>
    cases hd with
    | false => rfl
    | true =>
      simp only [filterStart, valued, if_true, List.filter_map]
      rfl

theorem defaultWeights_valued (f : Int → K) (df : Frame K) : (defaultWeights (valued f df)).1 = valued f (defaultWeights df).1 := by
  obtain ⟨hd, hw, rows⟩ := df
  cases hw with
  | false =>
    simp only [defaultWeights, valued, Bool.false_eq_true, if_false, List.map_map]
    rfl
  | true => rfl

theorem usedRows_valued (f : Int → K) (df : Frame K) : usedRows (valued f df) = valued f (usedRows df) := by
  simp only [usedRows, valued, List.filter_map]
  rfl

/-- What a forecast row is, for a model linear in its parameters and a series given by values at coordinates. -/
theorem valued_row [FloorRing K] [IsStrictOrderedRing K] (w : World K) (args : RunArgs K) (source : String) (df : Frame K) (g : Int → K)
    (res : RunResult K) (h : runSingle w args source (valued g df) = .ok res) (hout : args.findOutliers = false)
    (hmin : ∀ i, FindsMinimum (w.env source i)) (m : ForecastModel K) (hu : Unpinned m) (reg : Registry K) (val : List K → Int → Timestamp → K)
    {P : Frame K → Prop} (hm : LinearInParameters m reg val P)
    (hcand : ∀ df' cand, candidates w.ch args.models df' (runFreq df) = .ok cand → ∀ m' ∈ cand.2, m'.name = m.name → m' = m)
    (hdate : df.hasDate = true) (t0 : Timestamp) (hdays : CountsDays df t0) (r : DRow K) (hr : r ∈ res.data) (hact : r.isActuals = false)
    (hname : r.model = m.name) :
    ∃ i f act, fitModel (w.env source i) m (valued g (usedRows (defaultWeights (filterStart args.start df)).1)) (some act) args.useCache = .ok f ∧
      f.isFit = true ∧ r.y = some (val f.params ((r.date - t0) / (24 * 60 * 60 * 1000000000)) r.date) := by
  have hval := fun (ctx : Ctx K) xs ds p h1 h2 h3 h4 (h5 : ∀ k, ctx.cache k = none) h6 =>
    hm.value ctx xs ds p h1 h2 h3 h4 (by intro k v hk; rw [h5] at hk; cases hk) h6
  have hfreq : runFreq (valued g df) = runFreq df := by
    unfold runFreq
    have : (valued g df).rows.map Row.date = df.rows.map Row.date := by simp [valued, Function.comp_def]
    have h1 : (valued g df).hasDate = df.hasDate := rfl
    rw [this, h1]
  obtain ⟨df2, i, f, act, hOut, e2, hfit, hy⟩ := row_value w args source _ res h m (by rw [hfreq]; exact hcand) val hval
    (fun i used act f e hf => by
      obtain ⟨-, ctx, guess, b, r, -, -, -, h4, h5, h6, h7, -⟩ := fitModel_solver _ m _ _ _ f hu hm.params e hf
      rw [h7]
      exact (hm.free _ _ _ h4).1 (hmin i _ _ _ _ h5 h6).1) hdate t0 (by
      intro q hq
      obtain ⟨q0, h1, rfl⟩ := List.mem_map.1 hq
      exact hdays q0 h1) r hr hact hname
  rw [hout, filterStart_valued] at hOut
  have hOut := (Except.ok.inj hOut).symm
  subst hOut
  rw [defaultWeights_valued, usedRows_valued] at e2
  exact ⟨i, f, act, e2, hfit, hy⟩

/-- Forecasts of a model that is linear in its parameters are additive. -/
theorem superposition_run [FloorRing K] [IsStrictOrderedRing K] (w w' w'' : World K) (args args' args'' : RunArgs K) (source source' source'' : String)
    (df : Frame K) (u v : Int → K) (a b : K) (res res' res'' : RunResult K) (h : runSingle w args source (valued u df) = .ok res)
    (h' : runSingle w' args' source' (valued v df) = .ok res') (h'' : runSingle w'' args'' source'' (valued (fun x => a * u x + b * v x) df) = .ok res'')
    (hstart' : args'.start = args.start) (hstart'' : args''.start = args.start) (hout : args.findOutliers = false) (hout' : args'.findOutliers = false)
    (hout'' : args''.findOutliers = false)
    (hmin : ∀ i, FindsMinimum (w.env source i)) (hmin' : ∀ i, FindsMinimum (w'.env source' i)) (hmin'' : ∀ i, FindsMinimum (w''.env source'' i))
    (m : ForecastModel K) (hu : Unpinned m) (reg : Registry K) (val : List K → Int → Timestamp → K) {P : Frame K → Prop} (hm : LinearInParameters m reg val P)
    (hl : LinearPrediction m.nParams val)
    (hreg : ∀ i, Registered (w.env source i).globalCache reg m) (hreg' : ∀ i, Registered (w'.env source' i).globalCache reg m)
    (hreg'' : ∀ i, Registered (w''.env source'' i).globalCache reg m)
    (hcand : ∀ df' cand, candidates w.ch args.models df' (runFreq df) = .ok cand → ∀ m' ∈ cand.2, m'.name = m.name → m' = m)
    (hcand' : ∀ df' cand, candidates w'.ch args'.models df' (runFreq df) = .ok cand → ∀ m' ∈ cand.2, m'.name = m.name → m' = m)
    (hcand'' : ∀ df' cand, candidates w''.ch args''.models df' (runFreq df) = .ok cand → ∀ m' ∈ cand.2, m'.name = m.name → m' = m)
    (hdate : df.hasDate = true) (t0 : Timestamp) (hdays : CountsDays df t0) (hnd : (df.rows.map Row.x).Nodup)
    (r r' r'' : DRow K) (hr : r ∈ res.data) (hr' : r' ∈ res'.data) (hr'' : r'' ∈ res''.data) (hact : r.isActuals = false) (hact' : r'.isActuals = false)
    (hact'' : r''.isActuals = false) (hname : r.model = m.name) (hname' : r'.model = m.name) (hname'' : r''.model = m.name)
    (hsame' : r'.date = r.date) (hsame'' : r''.date = r.date)
    (hP : P (valued (fun x => a * u x + b * v x) (usedRows (defaultWeights (filterStart args.start df)).1)) := by trivial) :
    ∃ y y', r.y = some y ∧ r'.y = some y' ∧ r''.y = some (a * y + b * y') := by
  obtain ⟨i, f, act, e, hfit, hy⟩ := valued_row w args source df u res h hout hmin m hu reg val hm hcand hdate t0 hdays r hr hact hname
  obtain ⟨i', f', act', e', hfit', hy'⟩ := valued_row w' args' source' df v res' h' hout' hmin' m hu reg val hm hcand' hdate t0 hdays r' hr' hact' hname'
  obtain ⟨i'', f'', act'', e'', hfit'', hy''⟩ := valued_row w'' args'' source'' df _ res'' h'' hout'' hmin'' m hu reg val hm hcand'' hdate t0 hdays r'' hr''
    hact'' hname''
  rw [hstart'] at e'
  rw [hstart''] at e''
  obtain ⟨u1, u2, u3, u4, u5⟩ := used_rows false args.start df _ rfl
  generalize hused : usedRows (defaultWeights (filterStart args.start df)).1 = used at e e' e'' u1 u2 u5 hP
  have hsub : (used.rows.map Row.x).Sublist (df.rows.map Row.x) := by
    have h1 : (used.rows.map Row.x).Sublist ((defaultWeights (filterStart args.start df)).1.rows.map Row.x) := by
      rw [← hused]
      exact List.Sublist.map _ List.filter_sublist
    rw [u4] at h1
    exact h1.trans (List.Sublist.map _ List.filter_sublist)
  have hudate : used.hasDate = true := by rw [u1, hdate]
  obtain ⟨l1, l2, l3, hfv⟩ := C75_fitted _ _ _ (hmin i) (hmin' i') (hmin'' i'') m used u v a b _ _ _ _ _ _ f f' f'' hu hm.params e e' e'' hfit hfit' hfit''
    val reg (hreg i) (hreg' i') (hreg'' i'') (by
      intro ctx p a1 a2 a3 a4
      rw [hudate, if_pos rfl] at a3
      rw [hm.value ctx _ _ p a2 a3 (by simp) a4 a1 (by
        have := fit_nonempty _ m _ _ _ f e hfit
        rw [usableRows_valued, List.map_map] at this
        exact this), List.zipWith_map, List.zipWith_self]) hm.free hl
  have lz : (combined (-1) f.params f.params).length = m.nParams := by simp [combined, l1]
  obtain ⟨p, hp, hpv⟩ : ∃ p : List K, p.length = m.nParams ∧ ∀ x t, val p x t = a * val f.params x t + b * val f'.params x t := by
    refine ⟨combined b (combined a (combined (-1) f.params f.params) f.params) f'.params, by simp [combined, l1, l2], ?_⟩
    intro x t
    rw [hl _ _ _ x t (by simp [combined, l1]) l2, hl _ _ _ x t lz l1, hl _ _ _ x t l1 l1]
    ring
  refine ⟨_, _, hy, hy', ?_⟩
  rw [hy'', hsame', hsame'', ← hpv]
  congr 1
  have hst := (C30_status _ m _ _ _ f'' e'').2.2
  have hlong := hst.1.1 (.inl (hst.2.2.1 hfit''))
  have hx : ((valued (fun x => a * u x + b * v x) used).rows.map Row.x) = used.rows.map Row.x := by simp [valued, Function.comp_def]
  refine hm.determined (valued (fun x => a * u x + b * v x) used) hP _ _ l3 hp hudate (by rw [hx]; exact hsub.nodup hnd) hlong.1 hlong.2 ?_ _ _
  intro q hq
  rw [usableRows_valued] at hq
  obtain ⟨q0, hq0, rfl⟩ := List.mem_map.1 hq
  dsimp only
  rw [hfv q0 hq0, hpv]

omit [LinearOrder K] in
theorem line_linear : LinearPrediction 2 (lineValue : List K → Int → Timestamp → K) := by
  intro s p q x t hp hq
  obtain ⟨a, b, rfl⟩ := two_params p hp
  obtain ⟨a', b', rfl⟩ := two_params q hq
  simp only [combined, lineValue, List.zipWith_cons_cons, List.zipWith_nil_left, List.getD_cons_zero, List.getD_cons_succ]
  ring

omit [LinearOrder K] in
theorem weekly_linear : LinearPrediction 8 (weeklyValue : List K → Int → Timestamp → K) := by
  intro s p q x t hp hq
  obtain ⟨a, b, s1, s2, s3, s4, s5, s6, rfl⟩ := weekly_params p hp
  obtain ⟨a', b', s1', s2', s3', s4', s5', s6', rfl⟩ := weekly_params q hq
  simp only [combined, List.zipWith_cons_cons, List.zipWith_nil_left, weeklyValue_mem]
  split_ifs <;> ring

/-- **C75.** Two dated series over the same samples (same dates, weights and missing values) and any combination `a * u + b * v` of them, for instance their
sum: for each date the forecast of the linear trend for the combination is the combination of the forecasts. Without search for outliers. -/
theorem C75_line [FloorRing K] [IsStrictOrderedRing K] (w w' w'' : World K) (args args' args'' : RunArgs K) (source source' source'' : String)
    (df : Frame K) (u v : Int → K) (a b : K) (res res' res'' : RunResult K) (h : runSingle w args source (valued u df) = .ok res)
    (h' : runSingle w' args' source' (valued v df) = .ok res') (h'' : runSingle w'' args'' source'' (valued (fun x => a * u x + b * v x) df) = .ok res'')
    (hstart' : args'.start = args.start) (hstart'' : args''.start = args.start) (hout : args.findOutliers = false) (hout' : args'.findOutliers = false)
    (hout'' : args''.findOutliers = false)
    (hmin : ∀ i, FindsMinimum (w.env source i)) (hmin' : ∀ i, FindsMinimum (w'.env source' i)) (hmin'' : ∀ i, FindsMinimum (w''.env source'' i))
    (hcand : ∀ df' cand, candidates w.ch args.models df' (runFreq df) = .ok cand → ∀ m' ∈ cand.2, m'.name = "linear" → m' = modelLinear)
    (hcand' : ∀ df' cand, candidates w'.ch args'.models df' (runFreq df) = .ok cand → ∀ m' ∈ cand.2, m'.name = "linear" → m' = modelLinear)
    (hcand'' : ∀ df' cand, candidates w''.ch args''.models df' (runFreq df) = .ok cand → ∀ m' ∈ cand.2, m'.name = "linear" → m' = modelLinear)
    (hdate : df.hasDate = true) (t0 : Timestamp) (hdays : CountsDays df t0) (hnd : (df.rows.map Row.x).Nodup)
    (r r' r'' : DRow K) (hr : r ∈ res.data) (hr' : r' ∈ res'.data) (hr'' : r'' ∈ res''.data) (hact : r.isActuals = false) (hact' : r'.isActuals = false)
    (hact'' : r''.isActuals = false) (hname : r.model = "linear") (hname' : r'.model = "linear") (hname'' : r''.model = "linear")
    (hsame' : r'.date = r.date) (hsame'' : r''.date = r.date) :
    ∃ y y', r.y = some y ∧ r'.y = some y' ∧ r''.y = some (a * y + b * y') := by
  refine superposition_run w w' w'' args args' args'' source source' source'' df u v a b res res' res'' h h' h'' hstart' hstart'' hout hout' hout'' hmin hmin'
    hmin'' modelLinear linear_unpinned (fun _ => none) lineValue linear_inParameters line_linear ?_ ?_ ?_ hcand hcand' hcand'' hdate t0 hdays hnd r r' r''
    hr hr' hr'' hact hact' hact'' hname hname' hname'' hsame' hsame''
  all_goals
    intro i
    constructor <;> simp [modelLinear, mkModel]

/-- **C75, weekly.** The same for the linear trend with weekly seasonality. -/
theorem C75_weekly [FloorRing K] [IsStrictOrderedRing K] (w w' w'' : World K) (args args' args'' : RunArgs K) (source source' source'' : String)
    (df : Frame K) (u v : Int → K) (a b : K) (res res' res'' : RunResult K) (h : runSingle w args source (valued u df) = .ok res)
    (h' : runSingle w' args' source' (valued v df) = .ok res') (h'' : runSingle w'' args'' source'' (valued (fun x => a * u x + b * v x) df) = .ok res'')
    (hstart' : args'.start = args.start) (hstart'' : args''.start = args.start) (hout : args.findOutliers = false) (hout' : args'.findOutliers = false)
    (hout'' : args''.findOutliers = false)
    (hmin : ∀ i, FindsMinimum (w.env source i)) (hmin' : ∀ i, FindsMinimum (w'.env source' i)) (hmin'' : ∀ i, FindsMinimum (w''.env source'' i))
    (hcache : ∀ i f, (w.env source i).globalCache "a_weekday" = some f → f = cacheWeekday)
    (hcache' : ∀ i f, (w'.env source' i).globalCache "a_weekday" = some f → f = cacheWeekday)
    (hcache'' : ∀ i f, (w''.env source'' i).globalCache "a_weekday" = some f → f = cacheWeekday)
    (hcand : ∀ df' cand, candidates w.ch args.models df' (runFreq df) = .ok cand → ∀ m' ∈ cand.2, m'.name = "(linear+season_wday)" →
      m' = modelLinear.add modelSeasonWday)
    (hcand' : ∀ df' cand, candidates w'.ch args'.models df' (runFreq df) = .ok cand → ∀ m' ∈ cand.2, m'.name = "(linear+season_wday)" →
      m' = modelLinear.add modelSeasonWday)
    (hcand'' : ∀ df' cand, candidates w''.ch args''.models df' (runFreq df) = .ok cand → ∀ m' ∈ cand.2, m'.name = "(linear+season_wday)" →
      m' = modelLinear.add modelSeasonWday)
    (hdate : df.hasDate = true) (t0 : Timestamp) (hdays : CountsDays df t0) (hnd : (df.rows.map Row.x).Nodup)
    (r r' r'' : DRow K) (hr : r ∈ res.data) (hr' : r' ∈ res'.data) (hr'' : r'' ∈ res''.data) (hact : r.isActuals = false) (hact' : r'.isActuals = false)
    (hact'' : r''.isActuals = false) (hname : r.model = "(linear+season_wday)") (hname' : r'.model = "(linear+season_wday)")
    (hname'' : r''.model = "(linear+season_wday)") (hsame' : r'.date = r.date) (hsame'' : r''.date = r.date) :
    ∃ y y', r.y = some y ∧ r'.y = some y' ∧ r''.y = some (a * y + b * y') :=
  superposition_run w w' w'' args args' args'' source source' source'' df u v a b res res' res'' h h' h'' hstart' hstart'' hout hout' hout'' hmin hmin'
    hmin'' weeklyModel weekly_unpinned weeklyReg weeklyValue weekly_inParameters (by rw [weekly_nParams]; exact weekly_linear)
    (fun i => weekly_registered _ (hcache i)) (fun i => weekly_registered _ (hcache' i)) (fun i => weekly_registered _ (hcache'' i))
    (by rw [weekly_name]; exact hcand) (by rw [weekly_name]; exact hcand') (by rw [weekly_name]; exact hcand'') hdate t0 hdays hnd r r' r''
    hr hr' hr'' hact hact' hact'' (by rw [weekly_name]; exact hname) (by rw [weekly_name]; exact hname') (by rw [weekly_name]; exact hname'') hsame' hsame''

/-! ### Concrete runs -/

/-- Two series over the samples of the example for C69, on the lines `2 x + 1` and `20 - 3 x`; the sum lies on `21 - x`. -/
def sumRun (p : List ℚ) (f : Int → ℚ) : Option (List (Int × Option ℚ)) :=
  (runSingle { demoWorld with env := fun _ _ => knownEnv p } (demoArgs [modelLinear, modelConstant] (some [])) "s" (valued f lineFrame)).toOption.map fun r =>
    ((r.data.filter fun q => !q.isActuals).drop 5).map fun q => (q.date / DAY, q.y)

example : sumRun [2, 1] (fun x => 2 * (x : ℚ) + 1) = some [(10, some 13), (11, some 15), (12, some 17)] ∧
    sumRun [-3, 20] (fun x => 20 - 3 * (x : ℚ)) = some [(10, some 2), (11, some (-1)), (12, some (-4))] ∧
    sumRun [-1, 21] (fun x => 1 * (2 * (x : ℚ) + 1) + 1 * (20 - 3 * (x : ℚ))) = some [(10, some (13 + 2)), (11, some (15 + (-1))), (12, some (17 + (-4)))] := by
  decide +kernel

end Anticipy
