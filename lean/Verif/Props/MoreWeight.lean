import Verif.Spec.MoreWeight
import Verif.Props.Recomputed
import Verif.Props.Leverage
import Verif.Props.AdditiveTable
import Verif.Props.Repeated
import Mathlib.Algebra.BigOperators.Group.List.Basic

/-
C116: a sample that is given more weight is not fitted worse.
-/
namespace Anticipy
open Spec
variable {K : Type} [Field K] [LinearOrder K]

/-- A fit of a model with a formula: half of the squared errors are the cost, and no parameters give less. -/
theorem formula_minimal [IsStrictOrderedRing K] (env : Env K) (hmin : FindsMinimum env) (m : ForecastModel K) (val : List K → Int → Timestamp → K)
    (hm : HasFormula m false val) (reg : Registry K) (hreg : Registered env.globalCache reg m) (ht : CacheTransparent reg m) (df : Frame K)
    (hdate : df.hasDate = true) (act : Option (Frame K)) (c : Bool) (f : FitResult K) (h : fitModel env m df act c = .ok f) (hf : f.isFit = true) :
    f.params.length = m.nParams ∧ f.cost = some (misfit df (val f.params) / 2) ∧
      ∀ p : List K, p.length = m.nParams → misfit df (val f.params) ≤ misfit df (val p) := by
  obtain ⟨h0, ctx, guess, b, r, h1, h2, h3, h4, h5, h6, h7, h8, -, h9, h10, h11⟩ := fitModel_solver env m df act c f hm.unpinned hm.params h hf
  obtain ⟨hadm, l, hl, hcost, hle⟩ := hmin _ _ _ _ h5 h6
  rw [hdate, if_pos rfl] at h2
  obtain ⟨a, hb⟩ := hm.bounds ⟨some ctx.ax, some (prepare df).ys, none⟩
  rw [hb] at h4
  have h4 := Except.ok.inj h4
  rw [← h4] at hadm hle
  have hlen : ∀ p : List K, Admissible p (⟨List.replicate m.nParams .ninf, List.replicate m.nParams .pinf, a⟩ : Bounds K) ↔ p.length = m.nParams :=
    fun p => admissible_default m.nParams p a
  have hvalue : ∀ p : List K, p.length = m.nParams → ∃ l', getResiduals m ctx (prepare df).ys (prepare df).ws (some p) = .ok (vecOf l') ∧ sumSq l' = misfit df (val p) := by
    intro p hp
    have hv := hm.value (noCache ctx) ((usableRows df).map Row.x) ((usableRows df).map Row.date) p (by unfold noCache; dsimp only; rw [h1, hm.scale])
      (by unfold noCache; dsimp only; rw [h2]) (by simp) hp (fun _ => rfl) (fit_nonempty _ m df _ _ f h hf)
    rw [← cached_value env.globalCache reg m hreg ht c ctx h10 h9, List.zipWith_map, List.zipWith_self] at hv
    refine ⟨_, C33_residuals m ctx df (some p) _ _ hv ⟨by simp, .inl rfl⟩, ?_⟩
    rw [List.zipWith_map_right, List.zipWith_self]
    unfold sumSq misfit
    rw [List.map_map]
    congr 1
    apply List.map_congr_left
    intro q _
    simp only [Function.comp_def, sq_abs]
  have hpl := (hlen _).1 hadm
  obtain ⟨l1, e1, e2⟩ := hvalue _ hpl
  have e3 : sumSq l = sumSq l1 := by
    have := hl.symm.trans e1
    have h := Except.ok.inj this
    unfold vecOf at h
    rw [List.map_injective_iff.2 (Option.some_injective K) (Arr.vec.inj h)]
  rw [h7, h8]
  refine ⟨hpl, by rw [hcost, e3, e2], ?_⟩
  intro p hp
  obtain ⟨l2, e4, e5⟩ := hvalue p hp
  rw [← e2, ← e5, ← e3]
  exact hle p l2 ((hlen p).2 hp) e4

variable [FloorRing K]

/-- The sum of squared errors over the samples used in a run, read from the observations of the result. -/
theorem misfit_observed [IsStrictOrderedRing K] (w : World K) (args : RunArgs K) (source : String) (df : Frame K) (res : RunResult K)
    (h : runSingle w args source df = .ok res) (df2 : Frame K) (hOut2 : applyOutliers args.findOutliers (filterStart args.start df) = .ok df2)
    (hdate : df.hasDate = true) (t0 : Timestamp) (hdays : CountsDays df t0) (hnd : (df.rows.map Row.x).Nodup) (v : Int → Timestamp → K) :
    misfit (usedRows (defaultWeights df2).1) v = squaredErrors res (fun d => v ((d - t0) / (24 * 60 * 60 * 1000000000)) d) := by
  obtain ⟨u1, u2, u3, u4, u5⟩ := used_rows args.findOutliers args.start df df2 hOut2
  obtain ⟨df3, hOut, hobs⟩ := observed_rows w args source df res h hdate
  rw [hOut2] at hOut
  cases hOut
  generalize hused : usedRows (defaultWeights df2).1 = used at u1 u2 u5 hobs
  have hsubx : (used.rows.map Row.x).Sublist (df.rows.map Row.x) := by
    have h1 : (used.rows.map Row.x).Sublist ((defaultWeights df2).1.rows.map Row.x) := by
      rw [← hused]
      exact List.Sublist.map _ List.filter_sublist
    rw [u4] at h1
    exact h1.trans (List.Sublist.map _ List.filter_sublist)
  have hndu := hsubx.nodup hnd
  unfold squaredErrors misfit
  have e1 : ∀ F : Timestamp × Option K × Option K → K, ((observed res).map fun a => F (a.date, a.y, a.weight)) =
      (usableRows used).map fun r => F (r.date, r.y, r.weight) := by
    intro F
    have := congrArg (List.map F) hobs
    simpa [List.map_map, Function.comp_def] using this
  rw [e1 fun c => (c.2.2.getD 0 * (c.2.1.getD 0 - v ((c.1 - t0) / (24 * 60 * 60 * 1000000000)) c.1)) ^ 2]
  congr 1
  apply List.map_congr_left
  intro r hr
  have hmem := (List.mem_filter.1 hr).1
  obtain ⟨k, hk, k1, k2, -⟩ := u5 r hmem
  have hd : r.date = t0 + r.x * (24 * 60 * 60 * 1000000000) := by
    rw [k1, k2]
    exact hdays k (List.mem_filter.1 hk).1
  have hx : (r.date - t0) / (24 * 60 * 60 * 1000000000) = r.x := by rw [hd]; omega
  have hsh : sharing (usableRows used) r = 1 := sharing_one _ (hndu.sublist (List.Sublist.map _ List.filter_sublist)) r hr
  rw [hsh]
  dsimp only
  rw [hx]
  unfold weightOf
  rw [u2, if_pos rfl]
  push_cast
  ring

/-- A forecast is the value of the model at parameters of which no others give a smaller sum of squared errors over the rows that count. -/
theorem best_row [IsStrictOrderedRing K] (w : World K) (args : RunArgs K) (id : String) (t : STable K) (hp : Proper t) (s : String) (hs : IsSeries t id s)
    (res : RunResult K) (h : runForecast w args id t = .ok (some res)) (hout : args.findOutliers = false) (m : ForecastModel K)
    (val : List K → Int → Timestamp → K) (hm : HasFormula m false val)
    (reg : Registry K) (ht : CacheTransparent reg m) (hx : FitsExactly w args s (seriesFrame t s) m reg) (r : DRow K) (hr : ForecastOf (partOf t s res) m.name r) :
    ∃ p : List K, p.length = m.nParams ∧ r.y = some (val p ((r.date - originOf t s) / (24 * 60 * 60 * 1000000000)) r.date) ∧
      ∀ q : List K, q.length = m.nParams →
        squares args.start t s (fun r => r.y.getD 0 - val p ((r.date - originOf t s) / (24 * 60 * 60 * 1000000000)) r.date) ≤
          squares args.start t s (fun r => r.y.getD 0 - val q ((r.date - originOf t s) / (24 * 60 * 60 * 1000000000)) r.date) := by
  obtain ⟨hd, hrun⟩ := series_run w id t hp s hs
  have h1 := hrun args res h
  obtain ⟨d, hd1, hdata, -, -⟩ := runSingle_inv w args s _ _ h1
  obtain ⟨st⟩ := runFits_stages w args s _ d hd1
  have hsub : r ∈ d.1 := by
    have hr := hr.1
    rw [hdata] at hr
    unfold selectFits at hr
    split_ifs at hr
    · exact hr
    · exact (List.mem_filter.1 hr).1
  obtain ⟨u1, -⟩ := used_rows args.findOutliers args.start _ st.df2 st.hOut
  have hfit : ∀ (i : Nat) (used : Frame K) (act : Option (Frame K)) (f : FitResult K),
      fitModel (w.env s i) m used act args.useCache = .ok f → f.isFit = true → f.params.length = m.nParams := by
    intro i used act f e hf
    obtain ⟨-, ctx, guess, b, r, -, -, -, h4, h5, h6, h7, -⟩ := fitModel_solver _ m _ _ _ f hm.unpinned hm.params e hf
    obtain ⟨hadm, -⟩ := hx.minimum i _ _ _ _ h5 h6
    obtain ⟨a, ha⟩ := hm.bounds ⟨some ctx.ax, some (prepare used).ys, none⟩
    rw [ha] at h4
    rw [h7]
    rw [← Except.ok.inj h4] at hadm
    exact (admissible_default m.nParams r.params a).1 hadm
  obtain ⟨i, f, -, e2, e3, e4⟩ := row_value_stage w args s _ d st m (hx.only _ _ st.hCand) val
    (fun ctx xs ds p h1 h2 h3 h4 h5 h6 => hm.value ctx xs ds p (by rw [h1, hm.scale]) h2 h3 h4 h5 h6) hfit hd.dated _ hd.days r hsub hr.2.1 hr.2.2
  obtain ⟨g1, -, g3⟩ := formula_minimal _ (hx.minimum i) m val hm reg (hx.registered i) ht _ (by rw [u1]; exact hd.dated) _ _ f e2 e3
  refine ⟨f.params, g1, e4, fun q hq => ?_⟩
  have := g3 q hq
  rw [misfit_observed w args s _ _ h1 st.df2 st.hOut hd.dated _ hd.days hd.nodup, misfit_observed w args s _ _ h1 st.df2 st.hOut hd.dated _ hd.days hd.nodup] at this
  unfold squaredErrors at this
  rw [observed_sum w args id t res h s hs hp.onePerDate.hasDate hout fun d y wt => (wt * (y - val f.params ((d - originOf t s) / (24 * 60 * 60 * 1000000000)) d)) ^ 2,
    observed_sum w args id t res h s hs hp.onePerDate.hasDate hout fun d y wt => (wt * (y - val q ((d - originOf t s) / (24 * 60 * 60 * 1000000000)) d)) ^ 2] at this
  unfold squares
  simpa only [mul_pow] using this

/-- Squares over the rows that count, as a sum over all rows of the series. -/
def effective (start : Option Timestamp) (t : STable K) (r : SRow K) : K :=
  if (match start with | some d => decide (d ≤ r.date) | none => true) && r.y.isSome && decide (0 < rowWeight t r) then rowWeight t r ^ 2 else 0

omit [FloorRing K] in
theorem sum_filter_ite {α : Type} (P : α → Bool) (f : α → K) (l : List α) : ((l.filter P).map f).sum = (l.map fun a => if P a then f a else 0).sum := by
  induction l with
  | nil => rfl
  | cons a l ih =>
    rw [List.filter_cons]
    split_ifs with h
    · simp [ih, h]
    · simp [ih, h]

omit [FloorRing K] in
theorem squares_effective (start : Option Timestamp) (t : STable K) (s : String) (g : SRow K → K) :
    squares start t s g = ((rowsOf t s).map fun r => effective start t r * g r ^ 2).sum := by
  unfold squares counted
  rw [sum_filter_ite]
  congr 1
  apply List.map_congr_left
  intro r _
  unfold effective
  cases start <;> dsimp only <;> split_ifs <;> simp

omit [FloorRing K] in
theorem rowsOf_otherWeights (W : SRow K → K) (t : STable K) (s : String) :
    rowsOf (otherWeights W t) s = (rowsOf t s).map fun r => { r with weight := some (W r) } :=
  rowsOf_map { t with hasWeight := true } (fun r => { r with weight := some (W r) }) (fun _ => rfl) s

omit [FloorRing K] in
theorem originOf_otherWeights (W : SRow K → K) (t : STable K) (s : String) : originOf (otherWeights W t) s = originOf t s := by
  unfold originOf
  rw [rowsOf_otherWeights]
  cases rowsOf t s <;> rfl

omit [FloorRing K] in
theorem proper_otherWeights (W : SRow K → K) (t : STable K) (hp : Proper t) : Proper (otherWeights W t) :=
  proper_map { t with hasWeight := true } (fun r => { r with weight := some (W r) }) 0 (fun _ => rfl) (fun _ => (add_zero _).symm)
    ⟨⟨hp.onePerDate.hasX, hp.onePerDate.hasDate, hp.onePerDate.timeOfDay, hp.onePerDate.distinct⟩, hp.labelled⟩

omit [FloorRing K] in
theorem isSeries_otherWeights (W : SRow K → K) (t : STable K) (id s : String) (h : IsSeries t id s) : IsSeries (otherWeights W t) id s :=
  isSeries_map { t with hasWeight := true } (fun r => { r with weight := some (W r) }) (fun _ => rfl) id s h

omit [FloorRing K] in
theorem squares_otherWeights (W : SRow K → K) (start : Option Timestamp) (t : STable K) (s : String) (g : SRow K → K)
    (hg : ∀ r x, g { r with weight := x } = g r) :
    squares start (otherWeights W t) s g = ((rowsOf t s).map fun r => effective start (otherWeights W t) { r with weight := some (W r) } * g r ^ 2).sum := by
  rw [squares_effective, rowsOf_otherWeights, List.map_map]
  congr 1
  apply List.map_congr_left
  intro r _
  simp only [Function.comp, hg]

omit [FloorRing K] in
theorem sum_minus {α : Type} (l : List α) (f g : α → K) : (l.map f).sum - (l.map g).sum = (l.map fun a => f a - g a).sum := by
  induction l with
  | nil => simp
  | cons a l ih =>
    simp only [List.map_cons, List.sum_cons, ← ih]
    ring

/-- **C116.** One sample of a series is given a greater weight (or it was ignored and now counts); everything else stays. For every model with a formula the fitted
value on its date is at least as close to the sample as before. -/
theorem C116_sample [IsStrictOrderedRing K] (w w' : World K) (args args' : RunArgs K) (id : String) (t : STable K) (hp : Proper t) (s : String) (hs : IsSeries t id s)
    (r0 : SRow K) (W : SRow K → K) (hW : RaisesWeight t s r0 W) (y : K) (hy : r0.y = some y) (hin : ∀ d, args.start = some d → d ≤ r0.date)
    (res res' : RunResult K) (h : runForecast w args id t = .ok (some res)) (h' : runForecast w' args' id (otherWeights W t) = .ok (some res'))
    (hstart : args'.start = args.start) (hout : args.findOutliers = false) (hout' : args'.findOutliers = false)
    (m : ForecastModel K) (val : List K → Int → Timestamp → K) (hm : HasFormula m false val) (reg : Registry K) (ht : CacheTransparent reg m)
    (hx : FitsExactly w args s (seriesFrame t s) m reg) (hx' : FitsExactly w' args' s (seriesFrame (otherWeights W t) s) m reg)
    (r r' : DRow K) (hr : ForecastOf (partOf t s res) m.name r) (hr' : ForecastOf (partOf (otherWeights W t) s res') m.name r')
    (hd : r.date = r0.date) (hd' : r'.date = r0.date) : ∃ v v', r.y = some v ∧ r'.y = some v' ∧ |y - v'| ≤ |y - v| := by
  obtain ⟨p, hpl, e, hle⟩ := best_row w args id t hp s hs res h hout m val hm reg ht hx r hr
  obtain ⟨p', hpl', e', hle'⟩ := best_row w' args' id _ (proper_otherWeights W t hp) s (isSeries_otherWeights W t id s hs) res' h' hout' m val hm reg ht hx' r' hr'
  rw [originOf_otherWeights] at e'
  simp only [originOf_otherWeights, hstart] at hle'
  refine ⟨_, _, e, e', ?_⟩
  rw [hd, hd']
  have h1 := hle p' hpl'
  have h2 := hle' p hpl
  rw [squares_otherWeights W _ t s _ (fun _ _ => rfl), squares_otherWeights W _ t s _ (fun _ _ => rfl)] at h2
  rw [squares_effective, squares_effective] at h1
  generalize hv : (fun r : SRow K => r.y.getD 0 - val p ((r.date - originOf t s) / (24 * 60 * 60 * 1000000000)) r.date) = g at h1 h2
  generalize hv' : (fun r : SRow K => r.y.getD 0 - val p' ((r.date - originOf t s) / (24 * 60 * 60 * 1000000000)) r.date) = g' at h1 h2
  simp only [congrFun hv, congrFun hv'] at h1 h2
  -- gain of one row
  have hsum : ((rowsOf t s).map fun r => (effective args.start (otherWeights W t) { r with weight := some (W r) } - effective args.start t r) * (g' r ^ 2 - g r ^ 2)).sum ≤ 0 := by
    have e1 := sum_minus (rowsOf t s) (fun r => effective args.start (otherWeights W t) { r with weight := some (W r) } * g' r ^ 2)
      (fun r => effective args.start (otherWeights W t) { r with weight := some (W r) } * g r ^ 2)
    have e2 := sum_minus (rowsOf t s) (fun r => effective args.start t r * g' r ^ 2) (fun r => effective args.start t r * g r ^ 2)
    have e3 := sum_minus (rowsOf t s) (fun r => effective args.start (otherWeights W t) { r with weight := some (W r) } * g' r ^ 2 -
      effective args.start (otherWeights W t) { r with weight := some (W r) } * g r ^ 2)
      (fun r => effective args.start t r * g' r ^ 2 - effective args.start t r * g r ^ 2)
    have e4 : ((rowsOf t s).map fun r => (effective args.start (otherWeights W t) { r with weight := some (W r) } - effective args.start t r) * (g' r ^ 2 - g r ^ 2)).sum =
        ((rowsOf t s).map fun r => (effective args.start (otherWeights W t) { r with weight := some (W r) } * g' r ^ 2 -
          effective args.start (otherWeights W t) { r with weight := some (W r) } * g r ^ 2) -
            (effective args.start t r * g' r ^ 2 - effective args.start t r * g r ^ 2)).sum := by
      congr 1
      apply List.map_congr_left
      intro r _
      ring
    rw [e4, ← e3, ← e1, ← e2]
    linarith
  classical
  rw [List.sum_map_eq_nsmul_single r0 _ (by
    intro r hne hr
    have : effective args.start (otherWeights W t) { r with weight := some (W r) } = effective args.start t r := by
      have hw : rowWeight (otherWeights W t) { r with weight := some (W r) } = rowWeight t r := hW.rest r hr hne
      unfold effective
      rw [hw]
    rw [this]
    ring)] at hsum
  have hcount : 0 < (rowsOf t s).count r0 := List.count_pos_iff.2 hW.row
  have hgain : 0 < effective args.start (otherWeights W t) { r0 with weight := some (W r0) } - effective args.start t r0 := by
    have a1 : effective args.start (otherWeights W t) { r0 with weight := some (W r0) } = W r0 ^ 2 := by
      have hw : rowWeight (otherWeights W t) { r0 with weight := some (W r0) } = W r0 := rfl
      unfold effective
      rw [hw, if_pos]
      cases hst : args.start with
      | none => simp [hy, hW.positive]
      | some d => simp [hy, hW.positive, hin d hst]
    rw [a1]
    unfold effective
    split_ifs with hc
    · have hc : 0 < rowWeight t r0 := by
        simp only [Bool.and_eq_true, decide_eq_true_eq] at hc
        exact hc.2
      have := hW.greater
      nlinarith
    · have := hW.positive
      simp only [sub_zero]
      positivity
  have hneg : g' r0 ^ 2 - g r0 ^ 2 ≤ 0 := by
    by_contra hc
    push Not at hc
    have := nsmul_pos (mul_pos hgain hc) hcount.ne'
    exact absurd hsum (not_le.2 this)
  rw [← congrFun hv, ← congrFun hv'] at hneg
  rw [hy, Option.getD_some] at hneg
  exact sq_le_sq.1 (by linarith)

/-- The entry of the metadata of a fitted model: no parameters give a smaller sum of squared errors over the rows that count than twice the reported cost. -/
theorem best_metadata [IsStrictOrderedRing K] (w : World K) (args : RunArgs K) (id : String) (t : STable K) (hp : Proper t) (s : String) (hs : IsSeries t id s)
    (res : RunResult K) (h : runForecast w args id t = .ok (some res)) (hout : args.findOutliers = false) (m : ForecastModel K)
    (val : List K → Int → Timestamp → K) (hm : HasFormula m false val)
    (reg : Registry K) (ht : CacheTransparent reg m) (hx : FitsExactly w args s (seriesFrame t s) m reg)
    (hall : ∀ df' cand, candidates w.ch args.models df' (runFreq (seriesFrame t s)) = .ok cand → ∀ m1 ∈ cand.2, Unpinned m1)
    (b : MRow K) (hb : b ∈ (partOf t s res).metadata) (hbm : b.model = m.name) (hbf : b.isFit = true) :
    ∃ p : List K, p.length = m.nParams ∧
      b.cost = some (squares args.start t s (fun r => r.y.getD 0 - val p ((r.date - originOf t s) / (24 * 60 * 60 * 1000000000)) r.date) / 2) ∧
      ∀ q : List K, q.length = m.nParams →
        squares args.start t s (fun r => r.y.getD 0 - val p ((r.date - originOf t s) / (24 * 60 * 60 * 1000000000)) r.date) ≤
          squares args.start t s (fun r => r.y.getD 0 - val q ((r.date - originOf t s) / (24 * 60 * 60 * 1000000000)) r.date) := by
  obtain ⟨hd, hrun⟩ := series_run w id t hp s hs
  have h1 := hrun args res h
  obtain ⟨d, hd1, -, hmeta, -⟩ := runSingle_inv w args s _ _ h1
  obtain ⟨st⟩ := runFits_stages w args s _ d hd1
  have hb' : b ∈ d.2 := by
    rw [hmeta] at hb
    unfold selectFits at hb
    split_ifs at hb
    · exact hb
    · exact (List.mem_filter.1 hb).1
  obtain ⟨u1, -⟩ := used_rows args.findOutliers args.start _ st.df2 st.hOut
  obtain ⟨i, m', f, e1, e2, g1, g2, g3, g4, g5⟩ := metadata_stage w args s _ d st b hb'
  have hmem := List.mem_of_getElem? e1
  have hmm : m' = m := hx.only _ _ st.hCand _ hmem (by rw [← fit_unpinned _ _ _ _ _ _ (hall _ _ st.hCand _ hmem) e2, ← g1, hbm])
  subst hmm
  obtain ⟨k1, k2, k3⟩ := formula_minimal _ (hx.minimum i) m' val hm reg (hx.registered i) ht _ (by rw [u1]; exact hd.dated) _ _ f e2 (by rw [← g2, hbf])
  have hsq : ∀ q : List K, misfit (usedRows (defaultWeights st.df2).1) (val q) =
      squares args.start t s (fun r => r.y.getD 0 - val q ((r.date - originOf t s) / (24 * 60 * 60 * 1000000000)) r.date) := by
    intro q
    rw [misfit_observed w args s _ _ h1 st.df2 st.hOut hd.dated _ hd.days hd.nodup]
    unfold squaredErrors squares
    rw [observed_sum w args id t res h s hs hp.onePerDate.hasDate hout fun d y wt => (wt * (y - val q ((d - originOf t s) / (24 * 60 * 60 * 1000000000)) d)) ^ 2]
    simp only [mul_pow]
  refine ⟨f.params, k1, by rw [g3, k2, hsq], fun q hq => ?_⟩
  rw [← hsq, ← hsq]
  exact k3 q hq

/-- **C116, cost.** Greater weights (also for samples that were ignored before) never lower the reported cost of a model. -/
theorem C116_cost [IsStrictOrderedRing K] (w w' : World K) (args args' : RunArgs K) (id : String) (t : STable K) (hp : Proper t) (s : String) (hs : IsSeries t id s)
    (W : SRow K → K) (hW : ∀ r ∈ rowsOf t s, rowWeight t r ≤ W r)
    (res res' : RunResult K) (h : runForecast w args id t = .ok (some res)) (h' : runForecast w' args' id (otherWeights W t) = .ok (some res'))
    (hstart : args'.start = args.start) (hout : args.findOutliers = false) (hout' : args'.findOutliers = false)
    (m : ForecastModel K) (val : List K → Int → Timestamp → K) (hm : HasFormula m false val) (reg : Registry K) (ht : CacheTransparent reg m)
    (hx : FitsExactly w args s (seriesFrame t s) m reg) (hx' : FitsExactly w' args' s (seriesFrame (otherWeights W t) s) m reg)
    (hall : ∀ df' cand, candidates w.ch args.models df' (runFreq (seriesFrame t s)) = .ok cand → ∀ m1 ∈ cand.2, Unpinned m1)
    (hall' : ∀ df' cand, candidates w'.ch args'.models df' (runFreq (seriesFrame (otherWeights W t) s)) = .ok cand → ∀ m1 ∈ cand.2, Unpinned m1)
    (b b' : MRow K) (hb : b ∈ (partOf t s res).metadata) (hb' : b' ∈ (partOf (otherWeights W t) s res').metadata)
    (hbm : b.model = m.name) (hbm' : b'.model = m.name) (hbf : b.isFit = true) (hbf' : b'.isFit = true) :
    ∃ e e', b.cost = some e ∧ b'.cost = some e' ∧ e ≤ e' := by
  obtain ⟨p, hpl, e, hle⟩ := best_metadata w args id t hp s hs res h hout m val hm reg ht hx hall b hb hbm hbf
  obtain ⟨p', hpl', e', -⟩ := best_metadata w' args' id _ (proper_otherWeights W t hp) s (isSeries_otherWeights W t id s hs) res' h' hout' m val hm reg ht hx' hall'
    b' hb' hbm' hbf'
  refine ⟨_, _, e, e', ?_⟩
  have h1 := hle p' hpl'
  rw [originOf_otherWeights, hstart]
  refine div_le_div_of_nonneg_right (h1.trans ?_) (by norm_num)
  rw [squares_otherWeights W _ t s _ (fun _ _ => rfl), squares_effective]
  apply List.sum_le_sum
  intro r hr
  refine mul_le_mul_of_nonneg_right ?_ (sq_nonneg _)
  have hw : rowWeight (otherWeights W t) { r with weight := some (W r) } = W r := rfl
  have hle := hW r hr
  unfold effective
  rw [hw]
  generalize (match args.start with | some d => decide (d ≤ r.date) | none => true) = c
  cases c with
  | false => simp
  | true =>
    cases hy : r.y with
    | none => simp
    | some y =>
      simp only [Option.isSome_some, Bool.and_true, Bool.true_and, decide_eq_true_eq]
      split_ifs with h1 h2 h2
      · exact pow_le_pow_left₀ h1.le hle 2
      · exact absurd (h1.trans_le hle) h2
      · positivity
      · exact le_refl _

/-! ### A concrete case -/

/-- Four days, the last one with the value 4 among zeros. -/
def raisedTable : STable ℚ := ⟨true, false, false, false, [⟨0, none, 0, some 0, none⟩, ⟨DAY, none, 0, some 0, none⟩, ⟨2 * DAY, none, 0, some 0, none⟩,
  ⟨3 * DAY, none, 0, some 4, none⟩]⟩

/-- Weight 3 for the last day. -/
def raisedWeight (r : SRow ℚ) : ℚ := if r.date = 3 * DAY then 3 else 1

example : RaisesWeight raisedTable "p" ⟨3 * DAY, none, 0, some 4, none⟩ raisedWeight ∧ Proper raisedTable ∧ IsSeries raisedTable "p" "p" ∧
    HasFormula (modelConstant : ForecastModel ℚ) false (combination levelFeatures) ∧ CacheTransparent (fun _ => none) (modelConstant : ForecastModel ℚ) := by
  refine ⟨⟨by decide +kernel, by decide +kernel, by decide +kernel, by decide +kernel⟩, ⟨⟨rfl, rfl, by decide +kernel, by decide +kernel⟩, fun h => by cases h⟩, ?_,
    formula_constant false, fun _ _ _ _ _ => rfl⟩
  unfold IsSeries
  decide +kernel

/-- The fitted value on the last day moves from 1 to 3, closer to the sample 4; the cost grows from 6 to 18. -/
example : ((runForecast meanWorld (demoArgs [modelConstant] (some [])) "p" raisedTable).toOption.bind fun r => r.map fun r =>
      ((r.data.filter fun q => !q.isActuals && decide (q.date = 3 * DAY)).map fun q => q.y, r.metadata.map fun b => b.cost)) = some ([some 1], [some 6]) ∧
    ((runForecast meanWorld (demoArgs [modelConstant] (some [])) "p" (otherWeights raisedWeight raisedTable)).toOption.bind fun r => r.map fun r =>
      ((r.data.filter fun q => !q.isActuals && decide (q.date = 3 * DAY)).map fun q => q.y, r.metadata.map fun b => b.cost)) = some ([some 3], [some 18]) := by
  decide +kernel

end Anticipy
