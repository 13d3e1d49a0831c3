import Verif.Spec.Repeated
import Verif.Props.Balance
import Verif.Props.Similar

/-
C104: a table in which every sample is given the same number of times has the same trend and weekly pattern as one in which each is given once. Refuted for
single samples: a sample given twice counts for less than one given once.
-/
namespace Anticipy
open Spec
variable {K : Type} [Field K] [LinearOrder K]

section Rows
variable {α β : Type}

theorem filter_replicated (p : α → Bool) (k : Nat) (l : List α) :
    (l.flatMap (List.replicate k)).filter p = (l.filter p).flatMap (List.replicate k) := by
  induction l with
  | nil => rfl
  | cons a l ih =>
    rw [List.flatMap_cons, List.filter_append, ih, List.filter_cons]
    cases h : p a <;> simp [h]

theorem map_replicated (f : α → β) (k : Nat) (l : List α) : (l.flatMap (List.replicate k)).map f = (l.map f).flatMap (List.replicate k) := by
  induction l with
  | nil => rfl
  | cons a l ih => rw [List.flatMap_cons, List.map_append, ih, List.map_replicate]; rfl

theorem countP_replicated (p : α → Bool) (k : Nat) (l : List α) : (l.flatMap (List.replicate k)).countP p = k * l.countP p := by
  induction l with
  | nil => rfl
  | cons a l ih =>
    rw [List.flatMap_cons, List.countP_append, ih, List.countP_replicate, List.countP_cons]
    cases p a <;> simp [Nat.mul_add]
    omega

theorem sum_replicated (f : α → K) (k : Nat) (l : List α) : ((l.flatMap (List.replicate k)).map f).sum = k * (l.map f).sum := by
  induction l with
  | nil => simp
  | cons a l ih =>
    rw [List.flatMap_cons, List.map_append, List.sum_append, ih, List.map_replicate, List.sum_replicate, List.map_cons, List.sum_cons, nsmul_eq_mul]
    ring

end Rows

theorem repeats_usable {k : Nat} {df df' : Frame K} (h : Repeats k df df') : (usableRows df').Perm ((usableRows df).flatMap (List.replicate k)) := by
  unfold usableRows
  rw [← filter_replicated, h.weighted]
  exact h.rows.filter _

/-- Squared errors of a table in which every sample is given `k` times: the `k`-th part. -/
theorem misfit_repeats [IsStrictOrderedRing K] {k : Nat} (hk : k ≠ 0) {df df' : Frame K} (h : Repeats k df df') (a : Int → Timestamp → K) :
    misfit df' a = misfit df a / k := by
  have hp := repeats_usable h
  have hs : ∀ r, sharing (usableRows df') r = k * sharing (usableRows df) r := by
    intro r
    unfold sharing
    rw [hp.countP_eq, countP_replicated]
  have hk' : (k : K) ≠ 0 := by exact_mod_cast hk
  unfold misfit
  rw [(hp.map _).sum_eq, sum_replicated, ← List.sum_map_mul_left, div_eq_mul_inv, ← List.sum_map_mul_right]
  congr 1
  apply List.map_congr_left
  intro r _
  rw [hs, h.weighted]
  push_cast
  rw [div_mul_eq_div_div_swap]
  field_simp

/-- **C104, fitted values.** Two successful fits with exact solvers, of a table and of one with all its rows `k` times: if the model is linear in its
parameters they have the same value at every sample. -/
theorem C104_fitted_partial [IsStrictOrderedRing K] (env env' : Env K) (hmin : FindsMinimum env) (hmin' : FindsMinimum env') (m : ForecastModel K)
    (df df' : Frame K) (n : Nat) (hn : n ≠ 0) (hrep : Repeats n df df')
    (actuals actuals' : Option (Frame K)) (k k' : Bool) (f f' : FitResult K) (hu : Unpinned m) (hdate : df.hasDate = true)
    (h : fitModel env m df actuals k = .ok f) (h' : fitModel env' m df' actuals' k' = .ok f') (hf : f.isFit = true) (hf' : f'.isFit = true)
    (val : List K → Int → Timestamp → K) (reg : Registry K) (hreg : Registered env.globalCache reg m) (hreg' : Registered env'.globalCache reg m)
    {P : Frame K → Prop} (hm : LinearInParameters m reg val P) :
    f.params.length = m.nParams ∧ f'.params.length = m.nParams ∧ ∀ r ∈ usableRows df, val f'.params r.x r.date = val f.params r.x r.date := by
  have hval : ∀ (df : Frame K), df.hasDate = true → (usableRows df).map Row.x ≠ [] → ∀ (ctx : Ctx K) b p, CacheCorrect reg ctx.ax ctx.adate ctx.cache →
      ctx.ax = scaleX m ((usableRows df).map Row.x) →
      ctx.adate = (if df.hasDate then some ((usableRows df).map Row.date) else none) →
      m.fBounds ⟨some ctx.ax, some ((usableRows df).map fun r => r.y.getD 0), none⟩ = .ok b → Admissible p b →
      m.fModel ctx (some p) false = .ok (vecOf ((usableRows df).map fun r => val p r.x r.date)) := by
    intro df hd hne ctx b p a1 a2 a3 a4 a5
    rw [hd, if_pos rfl] at a3
    rw [hm.value ctx _ _ p a2 a3 (by simp) ((hm.free _ _ _ a4).1 a5) a1 hne, List.zipWith_map, List.zipWith_self]
  obtain ⟨b, h1, h2, -, h5⟩ := fit_minimal env hmin m df actuals k f hu hm.params h hf val reg hreg (hval df hdate (fit_nonempty _ m _ _ _ f h hf))
  obtain ⟨b', h1', h2', -, h5'⟩ := fit_minimal env' hmin' m _ actuals' k' f' hu hm.params h' hf' val reg hreg'
    (hval df' (hrep.dated.trans hdate) (fit_nonempty _ m _ _ _ f' h' hf'))
  rw [hm.free _ _ _ h1] at h2
  rw [hm.free _ _ _ h1'] at h2'
  have hmid : (halfway f'.params f.params).length = m.nParams := by simp [halfway, h2, h2']
  refine ⟨h2, h2', misfit_unique df (val f'.params) (val f.params) (val (halfway f'.params f.params)) (fun x t => hm.straight _ _ x t h2' h2) ?_
    (h5 _ ((hm.free _ _ _ h1).2 hmid))⟩
  have := h5' _ ((hm.free _ _ _ h1').2 hmid)
  rw [misfit_repeats hn hrep, misfit_repeats hn hrep] at this
  have hpos : (0 : K) < n := by exact_mod_cast Nat.pos_of_ne_zero hn
  exact (div_le_div_iff_of_pos_right hpos).1 this

omit [LinearOrder K] in
theorem repeats_start {n : Nat} {df df' : Frame K} (h : Repeats n df df') (s : Option Timestamp) : Repeats n (filterStart s df) (filterStart s df') := by
  obtain ⟨h1, h2, h3⟩ := h
  cases s with
  | none => exact ⟨h1, h2, h3⟩
  | some t =>
    simp only [filterStart, h1]
    split_ifs
    · refine ⟨rfl, h2, ?_⟩
      dsimp only
      rw [← filter_replicated]
      exact h3.filter _
    · exact ⟨h1, h2, h3⟩

theorem repeats_used {n : Nat} {df df' : Frame K} (h : Repeats n df df') : Repeats n (usedRows (defaultWeights df).1) (usedRows (defaultWeights df').1) := by
  obtain ⟨h1, h2, h3⟩ := h
  unfold defaultWeights
  rw [h2]
  split_ifs with hw
  · refine ⟨h1, h2, ?_⟩
    dsimp only [usedRows]
    rw [← filter_replicated]
    exact h3.filter _
  · refine ⟨h1, rfl, ?_⟩
    dsimp only [usedRows]
    rw [← filter_replicated, ← map_replicated]
    exact (h3.map _).filter _

/-- Forecasts for a table with all rows several times. -/
theorem repeats_run [FloorRing K] [IsStrictOrderedRing K] (w w' : World K) (args args' : RunArgs K) (source source' : String) (df df' : Frame K)
    (n : Nat) (hn : n ≠ 0) (hrep : Repeats n df df')
    (res res' : RunResult K) (h : runSingle w args source df = .ok res) (h' : runSingle w' args' source' df' = .ok res')
    (hstart : args'.start = args.start) (hout : args.findOutliers = false) (hout' : args'.findOutliers = false)
    (hmin : ∀ i, FindsMinimum (w.env source i)) (hmin' : ∀ i, FindsMinimum (w'.env source' i))
    (m : ForecastModel K) (hu : Unpinned m) (reg : Registry K) (val : List K → Int → Timestamp → K) (hm : LinearInParameters m reg val)
    (hreg : ∀ i, Registered (w.env source i).globalCache reg m) (hreg' : ∀ i, Registered (w'.env source' i).globalCache reg m)
    (hcand : ∀ df'' cand, candidates w.ch args.models df'' (runFreq df) = .ok cand → ∀ m' ∈ cand.2, m'.name = m.name → m' = m)
    (hcand' : ∀ df'' cand, candidates w'.ch args'.models df'' (runFreq df') = .ok cand → ∀ m' ∈ cand.2, m'.name = m.name → m' = m)
    (hdate : df.hasDate = true) (t0 : Timestamp) (hdays : CountsDays df t0)
    (hnd : (df.rows.map Row.x).Nodup)
    (r r' : DRow K) (hr : r ∈ res.data) (hr' : r' ∈ res'.data) (hact : r.isActuals = false) (hact' : r'.isActuals = false)
    (hname : r.model = m.name) (hname' : r'.model = m.name) (hsame : r'.date = r.date) : r'.y = r.y := by
  have hlen : ∀ (env : Env K), FindsMinimum env → ∀ (used : Frame K) act cc f, fitModel env m used act cc = .ok f → f.isFit = true →
      f.params.length = m.nParams := by
    intro env he used act cc f e hf
    obtain ⟨-, ctx, guess, b, r, -, -, -, h4, h5, h6, h7, -⟩ := fitModel_solver _ m _ _ _ f hu hm.params e hf
    rw [h7]
    exact (hm.free _ _ _ h4).1 (he _ _ _ _ h5 h6).1
  have hval := fun (ctx : Ctx K) xs ds p h1 h2 h3 h4 (h5 : ∀ k, ctx.cache k = none) h6 =>
    hm.value ctx xs ds p h1 h2 h3 h4 (by intro k v hk; rw [h5] at hk; cases hk) h6
  have hdays' : CountsDays df' t0 := by
    intro q hq
    obtain ⟨q', h1, h2⟩ := List.mem_flatMap.1 (hrep.rows.mem_iff.1 hq)
    rw [List.eq_of_mem_replicate h2]
    exact hdays q' h1
  obtain ⟨df2, i, f, act, hOut, e2, hfit, hy⟩ := row_value w args source df res h m hcand val hval
    (fun i used act f e hf => hlen _ (hmin i) used act _ f e hf) hdate t0 hdays r hr hact hname
  obtain ⟨df2', i', f', act', hOut', e2', hfit', hy'⟩ := row_value w' args' source' _ res' h' m hcand' val hval
    (fun i used act f e hf => hlen _ (hmin' i) used act _ f e hf) (hrep.dated.trans hdate) t0 hdays' r' hr' hact' hname'
  obtain ⟨u1, u2, u3, u4, u5⟩ := used_rows args.findOutliers args.start df df2 hOut
  rw [hout] at hOut
  rw [hout', hstart] at hOut'
  have hOut := (Except.ok.inj hOut).symm
  have hOut' := (Except.ok.inj hOut').symm
  subst hOut hOut'
  have hs := repeats_used (repeats_start hrep args.start)
  generalize hused : usedRows (defaultWeights (filterStart args.start df)).1 = used at e2 hs u1 u2 u5
  have hsub : (used.rows.map Row.x).Sublist (df.rows.map Row.x) := by
    have h1 : (used.rows.map Row.x).Sublist ((defaultWeights (filterStart args.start df)).1.rows.map Row.x) := by
      rw [← hused]
      exact List.Sublist.map _ List.filter_sublist
    rw [u4] at h1
    exact h1.trans (List.Sublist.map _ List.filter_sublist)
  have hst := (C30_status _ m used _ _ f e2).2.2
  have hlong := hst.1.1 (.inl (hst.2.2.1 hfit))
  have hudate : used.hasDate = true := by rw [u1, hdate]
  obtain ⟨l1, l2, hfv⟩ := C104_fitted_partial _ _ (hmin i) (hmin' i') m used _ n hn hs _ _ _ _ f f' hu hudate e2 e2' hfit hfit' val reg (hreg i) (hreg' i') hm
  rw [hy, hy', hsame]
  congr 1
  exact hm.determined used trivial _ _ l2 l1 hudate (hsub.nodup hnd) hlong.1 hlong.2 hfv _ _

/-- **C104.** Dated series with one sample per date, and a table with every row `n` times: the forecasts of the linear trend for a date are the same. -/
theorem C104_line_partial [FloorRing K] [IsStrictOrderedRing K] (w w' : World K) (args args' : RunArgs K) (source source' : String) (df df' : Frame K)
    (n : Nat) (hn : n ≠ 0) (hrep : Repeats n df df') (res res' : RunResult K) (h : runSingle w args source df = .ok res)
    (h' : runSingle w' args' source' df' = .ok res')
    (hstart : args'.start = args.start) (hout : args.findOutliers = false) (hout' : args'.findOutliers = false)
    (hmin : ∀ i, FindsMinimum (w.env source i)) (hmin' : ∀ i, FindsMinimum (w'.env source' i))
    (hcand : ∀ df'' cand, candidates w.ch args.models df'' (runFreq df) = .ok cand → ∀ m ∈ cand.2, m.name = "linear" → m = modelLinear)
    (hcand' : ∀ df'' cand, candidates w'.ch args'.models df'' (runFreq df') = .ok cand → ∀ m ∈ cand.2, m.name = "linear" → m = modelLinear)
    (hdate : df.hasDate = true) (t0 : Timestamp) (hdays : CountsDays df t0) (hnd : (df.rows.map Row.x).Nodup)
    (r r' : DRow K) (hr : r ∈ res.data) (hr' : r' ∈ res'.data) (hact : r.isActuals = false) (hact' : r'.isActuals = false)
    (hname : r.model = "linear") (hname' : r'.model = "linear") (hsame : r'.date = r.date) : r'.y = r.y :=
  repeats_run w w' args args' source source' df df' n hn hrep res res' h h' hstart hout hout' hmin hmin' modelLinear linear_unpinned (fun _ => none) lineValue
    linear_inParameters (by intro i; constructor <;> simp [modelLinear, mkModel]) (by intro i; constructor <;> simp [modelLinear, mkModel]) hcand hcand' hdate t0
    hdays hnd r r' hr hr' hact hact' hname hname' hsame

/-- **C104, level.** The same for the constant model. -/
theorem C104_level_partial [FloorRing K] [IsStrictOrderedRing K] (w w' : World K) (args args' : RunArgs K) (source source' : String) (df df' : Frame K)
    (n : Nat) (hn : n ≠ 0) (hrep : Repeats n df df') (res res' : RunResult K) (h : runSingle w args source df = .ok res)
    (h' : runSingle w' args' source' df' = .ok res')
    (hstart : args'.start = args.start) (hout : args.findOutliers = false) (hout' : args'.findOutliers = false)
    (hmin : ∀ i, FindsMinimum (w.env source i)) (hmin' : ∀ i, FindsMinimum (w'.env source' i))
    (hcand : ∀ df'' cand, candidates w.ch args.models df'' (runFreq df) = .ok cand → ∀ m ∈ cand.2, m.name = "constant" → m = modelConstant)
    (hcand' : ∀ df'' cand, candidates w'.ch args'.models df'' (runFreq df') = .ok cand → ∀ m ∈ cand.2, m.name = "constant" → m = modelConstant)
    (hdate : df.hasDate = true) (t0 : Timestamp) (hdays : CountsDays df t0) (hnd : (df.rows.map Row.x).Nodup)
    (r r' : DRow K) (hr : r ∈ res.data) (hr' : r' ∈ res'.data) (hact : r.isActuals = false) (hact' : r'.isActuals = false)
    (hname : r.model = "constant") (hname' : r'.model = "constant") (hsame : r'.date = r.date) : r'.y = r.y :=
  repeats_run w w' args args' source source' df df' n hn hrep res res' h h' hstart hout hout' hmin hmin' modelConstant constant_unpinned (fun _ => none) levelValue
    constant_inParameters (by intro i; constructor <;> simp [modelConstant, mkModel]) (by intro i; constructor <;> simp [modelConstant, mkModel]) hcand hcand' hdate t0
    hdays hnd r r' hr hr' hact hact' hname hname' hsame

/-- **C104, weekly.** The same for the linear trend with weekly seasonality. -/
theorem C104_weekly_partial [FloorRing K] [IsStrictOrderedRing K] (w w' : World K) (args args' : RunArgs K) (source source' : String) (df df' : Frame K)
    (n : Nat) (hn : n ≠ 0) (hrep : Repeats n df df') (res res' : RunResult K) (h : runSingle w args source df = .ok res)
    (h' : runSingle w' args' source' df' = .ok res')
    (hstart : args'.start = args.start) (hout : args.findOutliers = false) (hout' : args'.findOutliers = false)
    (hmin : ∀ i, FindsMinimum (w.env source i)) (hmin' : ∀ i, FindsMinimum (w'.env source' i))
    (hcache : ∀ i f, (w.env source i).globalCache "a_weekday" = some f → f = cacheWeekday)
    (hcache' : ∀ i f, (w'.env source' i).globalCache "a_weekday" = some f → f = cacheWeekday)
    (hcand : ∀ df'' cand, candidates w.ch args.models df'' (runFreq df) = .ok cand → ∀ m ∈ cand.2, m.name = "(linear+season_wday)" →
      m = modelLinear.add modelSeasonWday)
    (hcand' : ∀ df'' cand, candidates w'.ch args'.models df'' (runFreq df') = .ok cand → ∀ m ∈ cand.2, m.name = "(linear+season_wday)" →
      m = modelLinear.add modelSeasonWday)
    (hdate : df.hasDate = true) (t0 : Timestamp) (hdays : CountsDays df t0) (hnd : (df.rows.map Row.x).Nodup)
    (r r' : DRow K) (hr : r ∈ res.data) (hr' : r' ∈ res'.data) (hact : r.isActuals = false) (hact' : r'.isActuals = false)
    (hname : r.model = "(linear+season_wday)") (hname' : r'.model = "(linear+season_wday)") (hsame : r'.date = r.date) : r'.y = r.y :=
  repeats_run w w' args args' source source' df df' n hn hrep res res' h h' hstart hout hout' hmin hmin' weeklyModel weekly_unpinned weeklyReg weeklyValue
    weekly_inParameters (fun i => weekly_registered _ (hcache i)) (fun i => weekly_registered _ (hcache' i))
    (by rw [weekly_name]; exact hcand) (by rw [weekly_name]; exact hcand') hdate t0
    hdays hnd r r' hr hr' hact hact' (by rw [weekly_name]; exact hname) (by rw [weekly_name]; exact hname') hsame

/-- Six days of a line, each row given twice. -/
def twiceFrame : Frame ℚ := { lineFrame with rows := lineFrame.rows.flatMap fun r => [r, r] }

example : Repeats 2 lineFrame twiceFrame := ⟨rfl, rfl, by decide +kernel⟩

/-- The order does not matter: the whole table once more below itself. -/
example : Repeats 2 lineFrame { lineFrame with rows := lineFrame.rows ++ lineFrame.rows } := ⟨rfl, rfl, by decide +kernel⟩

example : ((runSingle lineWorld (demoArgs [modelLinear, modelConstant] (some [])) "s" twiceFrame).toOption.map fun r =>
    ((r.data.filter fun q => !q.isActuals).drop 5).map fun q => (q.date / DAY, q.model, q.y)) =
    some [(10, "linear", some 13), (11, "linear", some 15), (12, "linear", some 17)] := by decide +kernel

/-! ### One sample given twice -/

/-- Three days, the last one higher. -/
def highFrame : Frame ℚ := ⟨true, false, [⟨0, 0, some 0, none⟩, ⟨DAY, 1, some 0, none⟩, ⟨2 * DAY, 2, some 3, none⟩]⟩

/-- The same with the high sample given twice. -/
def highTwiceFrame : Frame ℚ := ⟨true, false, [⟨0, 0, some 0, none⟩, ⟨DAY, 1, some 0, none⟩, ⟨2 * DAY, 2, some 3, none⟩, ⟨2 * DAY, 2, some 3, none⟩]⟩

/-- A solver for models with one parameter and residuals that are linear in it: the weighted mean. -/
def meanEnv : Env ℚ :=
  { demoEnv with
    lsq := fun f _ _ => do
      let a ← f [0]
      let b ← f [1]
      match a, b with
      | .vec a, .vec b =>
        let g := List.zipWith (fun u v => u.getD 0 - v.getD 0) a b
        let p := [(List.zipWith (fun u v => u.getD 0 * v) a g).sum / (g.map fun v => v ^ 2).sum]
        (f p).map fun r => some ⟨true, some (halfSumSq r), p⟩
      | _, _ => .ok none }

def meanWorld : World ℚ := { demoWorld with env := fun _ _ => meanEnv }

/-- The level of a series of which every exact solver finds the level `v`. -/
theorem exact_level (df : Frame ℚ) (v : ℚ) (hd : df.hasDate = true) (t0 : Timestamp) (hdays : CountsDays df t0)
    (hbest : ∀ a : ℚ, misfit (usedRows (defaultWeights df).1) (fun _ _ => a) ≤ misfit (usedRows (defaultWeights df).1) (fun _ _ => v) → a = v)
    (w : World ℚ) (source : String) (hmin : ∀ i, FindsMinimum (w.env source i)) (args : RunArgs ℚ) (hstart : args.start = none) (hout : args.findOutliers = false)
    (hcand : ∀ df'' cand, candidates w.ch args.models df'' (runFreq df) = .ok cand → ∀ m ∈ cand.2, m.name = "constant" → m = modelConstant)
    (res : RunResult ℚ) (h : runSingle w args source df = .ok res) (r : DRow ℚ) (hr : r ∈ res.data) (hact : r.isActuals = false)
    (hname : r.model = "constant") : r.y = some v := by
  have hm := constant_inParameters (K := ℚ)
  have hlen : ∀ (env : Env ℚ), FindsMinimum env → ∀ (used : Frame ℚ) act cc f, fitModel env modelConstant used act cc = .ok f → f.isFit = true →
      f.params.length = (modelConstant : ForecastModel ℚ).nParams := by
    intro env he used act cc f e hf
    obtain ⟨-, ctx, guess, b, r, -, -, -, h4, h5, h6, h7, -⟩ := fitModel_solver _ modelConstant _ _ _ f constant_unpinned hm.params e hf
    rw [h7]
    exact (hm.free _ _ _ h4).1 (he _ _ _ _ h5 h6).1
  have hval := fun (ctx : Ctx ℚ) xs ds p h1 h2 h3 h4 (h5 : ∀ k, ctx.cache k = none) h6 =>
    hm.value ctx xs ds p h1 h2 h3 h4 (by intro k v hk; rw [h5] at hk; cases hk) h6
  obtain ⟨df2, i, f, act, hOut, e2, hfit, hy⟩ := row_value w args source df res h modelConstant hcand levelValue hval
    (fun i used act f e hf => hlen _ (hmin i) used act _ f e hf) hd t0 hdays r hr hact hname
  obtain ⟨u1, -, -, -, -⟩ := used_rows args.findOutliers args.start df df2 hOut
  rw [hout, hstart] at hOut
  have hOut := (Except.ok.inj hOut).symm
  have hdf : df2 = df := hOut
  subst hdf
  have hud : (usedRows (defaultWeights df2).1).hasDate = true := by rw [u1, hd]
  obtain ⟨b, h1, h2, -, h5⟩ := fit_minimal _ (hmin i) modelConstant _ _ _ f constant_unpinned hm.params e2 hfit levelValue (fun _ => none)
    (by constructor <;> simp [modelConstant, mkModel]) (by
      intro ctx b p a1 a2 a3 a4 a5
      rw [hud, if_pos rfl] at a3
      rw [hm.value ctx _ _ p a2 a3 (by simp) ((hm.free _ _ _ a4).1 a5) a1 (fit_nonempty _ modelConstant _ _ _ f e2 hfit), List.zipWith_map, List.zipWith_self])
  rw [hy]
  congr 1
  exact hbest _ (h5 [v] ((hm.free _ _ _ h1).2 rfl))

/-- **C104, counterexample.** Three samples 0, 0 and 3 have the level 1. With the last one given twice the level is 3/5, farther away from 3 instead of
nearer to it: with any exact solver, and in a concrete run. -/
theorem C104_counterexample :
    (∀ (w : World ℚ) (source : String), (∀ i, FindsMinimum (w.env source i)) → ∀ args : RunArgs ℚ, args.start = none → args.findOutliers = false →
      (∀ freq df'' cand, candidates w.ch args.models df'' freq = .ok cand → ∀ m ∈ cand.2, m.name = "constant" → m = modelConstant) →
      (∀ res, runSingle w args source highFrame = .ok res → ∀ r ∈ res.data, r.isActuals = false → r.model = "constant" → r.y = some 1) ∧
      (∀ res, runSingle w args source highTwiceFrame = .ok res → ∀ r ∈ res.data, r.isActuals = false → r.model = "constant" → r.y = some (3 / 5))) ∧
    ((runSingle meanWorld (demoArgs [modelConstant] (some [])) "s" highFrame).toOption.map fun r =>
      ((r.data.filter fun q => !q.isActuals).drop 3).map fun q => (q.date / DAY, q.y)) = some [(3, some 1), (4, some 1), (5, some 1)] ∧
    ((runSingle meanWorld (demoArgs [modelConstant] (some [])) "s" highTwiceFrame).toOption.map fun r =>
      ((r.data.filter fun q => !q.isActuals).drop 3).map fun q => (q.date / DAY, q.y)) =
      some [(3, some (3 / 5)), (4, some (3 / 5)), (5, some (3 / 5))] := by
  refine ⟨?_, by decide +kernel, by decide +kernel⟩
  intro w source hmin args hstart hout hcand
  constructor
  · intro res h r hr hact hname
    refine exact_level highFrame 1 rfl 0 (by unfold CountsDays; decide +kernel) ?_ w source hmin args hstart hout (hcand _) res h r hr hact hname
    intro a ha
    have e : ∀ a : ℚ, misfit (usedRows (defaultWeights highFrame).1) (fun _ _ => a) = ((0 - a) * (1 / 1)) ^ 2 + (((0 - a) * (1 / 1)) ^ 2 + (((3 - a) * (1 / 1)) ^ 2 + 0)) := by
      intro a
      rfl
    rw [e, e] at ha
    nlinarith [sq_nonneg (a - 1)]
  · intro res h r hr hact hname
    refine exact_level highTwiceFrame (3 / 5) rfl 0 (by unfold CountsDays; decide +kernel) ?_ w source hmin args hstart hout (hcand _) res h r hr hact hname
    intro a ha
    have e : ∀ a : ℚ, misfit (usedRows (defaultWeights highTwiceFrame).1) (fun _ _ => a) =
        ((0 - a) * (1 / 1)) ^ 2 + (((0 - a) * (1 / 1)) ^ 2 + (((3 - a) * (1 / 2)) ^ 2 + (((3 - a) * (1 / 2)) ^ 2 + 0))) := by
      intro a
      rfl
    rw [e, e] at ha
    nlinarith [sq_nonneg (a - 3 / 5)]

end Anticipy
