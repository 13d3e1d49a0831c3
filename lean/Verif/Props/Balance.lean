import Verif.Spec.Balance
import Verif.Props.Superposition

/-
C88: the errors of a fitted linear trend balance over the observations, also per day of the week with weekly seasonality.
-/
namespace Anticipy
open Spec
variable {K : Type} [Field K] [LinearOrder K]

omit [LinearOrder K] in
/-- With one sample per coordinate, the values are a function of the coordinate. -/
theorem valued_self (df : Frame K) (hnd : (df.rows.map Row.x).Nodup) : ∃ g : Int → K, valued g df = df ∧ ∀ r ∈ df.rows, g r.x = r.y.getD 0 := by
  obtain ⟨hd, hw, rows⟩ := df
  dsimp only at hnd
  have key : ∀ rows : List (Row K), (rows.map Row.x).Nodup → ∃ g : Int → K, ∀ r ∈ rows, g r.x = r.y.getD 0 := by
    intro rows
    induction rows with
    | nil => exact fun _ => ⟨fun _ => 0, by simp⟩
    | cons q l ih =>
      intro h
      rw [List.map_cons, List.nodup_cons] at h
      obtain ⟨g, hg⟩ := ih h.2
      refine ⟨fun x => if x = q.x then q.y.getD 0 else g x, ?_⟩
      intro r hr
      rcases List.mem_cons.1 hr with rfl | hr
      · simp
      · dsimp only
        rw [if_neg, hg r hr]
        intro e
        exact h.1 (e ▸ List.mem_map_of_mem hr)
  obtain ⟨g, hg⟩ := key rows hnd
  refine ⟨g, ?_, hg⟩
  unfold valued
  dsimp only
  congr 1
  conv_rhs => rw [← List.map_id rows]
  apply List.map_congr_left
  intro r hr
  have := hg r hr
  obtain ⟨t, x, y, w⟩ := r
  cases y with
  | none => rfl
  | some v => simp_all

/-- The observations of a result are the samples that the fits use. -/
theorem observed_rows [FloorRing K] [IsStrictOrderedRing K] (w : World K) (args : RunArgs K) (source : String) (df : Frame K) (res : RunResult K)
    (h : runSingle w args source df = .ok res) (hdate : df.hasDate = true) :
    ∃ df2, applyOutliers args.findOutliers (filterStart args.start df) = .ok df2 ∧
      (observed res).map (fun a => (a.date, a.y, a.weight)) =
        (usableRows (usedRows (defaultWeights df2).1)).map fun r => (r.date, r.y, r.weight) := by
  obtain ⟨d, hd, hdata, -, -⟩ := runSingle_inv w args source df res h
  obtain ⟨st⟩ := runFits_stages w args source df d hd
  refine ⟨st.df2, st.hOut, ?_⟩
  have hrows := actual_rows w args source df d st
  rw [← hdata] at hrows
  obtain ⟨u1, u2, -⟩ := used_rows args.findOutliers args.start df st.df2 st.hOut
  have h1 : observed res = (res.data.filter DRow.isActuals).filter fun a => a.y.isSome && decide (0 < a.weight.getD 0) := by
    unfold observed
    rw [List.filter_filter]
    apply List.filter_congr
    intro a _
    cases a.isActuals <;> simp
  have hu : (defaultWeights st.df2).1.hasDate = true := by rw [← hdate, ← u1]; rfl
  have hw : (defaultWeights st.df2).1.hasWeight = true := u2
  rw [h1, hrows]
  unfold actualsClean usableRows usedRows
  dsimp only
  rw [hu, hw, List.map_map, List.filter_map, List.map_map, List.filter_filter]
  refine congrArg₂ List.map rfl (List.filter_congr ?_)
  intro r _
  obtain ⟨t, x, y, wt⟩ := r
  rw [Bool.eq_iff_iff]
  cases y <;> cases wt <;> simp [flagData, Usable]
  exact decide_eq_true_iff

/-- **C88, any model linear in its parameters.** The errors of the fitted values are orthogonal to all values the model can take. -/
theorem balanced_run [FloorRing K] [IsStrictOrderedRing K] (w : World K) (args : RunArgs K) (source : String) (df : Frame K)
    (res : RunResult K) (h : runSingle w args source df = .ok res) (hmin : ∀ i, FindsMinimum (w.env source i))
    (m : ForecastModel K) (hu : Unpinned m) (reg : Registry K) (val : List K → Int → Timestamp → K) {P : Frame K → Prop} (hm : LinearInParameters m reg val P)
    (hl : LinearPrediction m.nParams val) (hreg : ∀ i, Registered (w.env source i).globalCache reg m)
    (hcand : ∀ df' cand, candidates w.ch args.models df' (runFreq df) = .ok cand → ∀ m' ∈ cand.2, m'.name = m.name → m' = m)
    (hdate : df.hasDate = true) (t0 : Timestamp) (hdays : CountsDays df t0) (hnd : (df.rows.map Row.x).Nodup)
    (r0 : DRow K) (hr : r0 ∈ res.data) (hact : r0.isActuals = false) (hname : r0.model = m.name)
    (hP : ∀ df2, applyOutliers args.findOutliers (filterStart args.start df) = .ok df2 → P (usedRows (defaultWeights df2).1) := by intros; trivial) :
    ∃ p : List K, p.length = m.nParams ∧ ForecastsAre res m.name (fun t => val p ((t - t0) / (24 * 60 * 60 * 1000000000)) t) ∧
      ∀ q : List K, q.length = m.nParams →
        errorSum res (fun t => val p ((t - t0) / (24 * 60 * 60 * 1000000000)) t) (fun t => val q ((t - t0) / (24 * 60 * 60 * 1000000000)) t) = 0 := by
  have hval := fun (ctx : Ctx K) xs ds p h1 h2 h3 h4 (h5 : ∀ k, ctx.cache k = none) h6 =>
    hm.value ctx xs ds p h1 h2 h3 h4 (by intro k v hk; rw [h5] at hk; cases hk) h6
  have hlen : ∀ (i : Nat) (used : Frame K) (act : Option (Frame K)) (f : FitResult K), fitModel (w.env source i) m used act args.useCache = .ok f →
      f.isFit = true → f.params.length = m.nParams := by
    intro i used act f e hf
    obtain ⟨-, ctx, guess, b, r, -, -, -, h4, h5, h6, h7, -⟩ := fitModel_solver _ m _ _ _ f hu hm.params e hf
    rw [h7]
    exact (hm.free _ _ _ h4).1 (hmin i _ _ _ _ h5 h6).1
  obtain ⟨df2, hOut, hobs⟩ := observed_rows w args source df res h hdate
  have rowv := fun (r : DRow K) hr ha hn => row_value w args source df res h m hcand val hval hlen hdate t0 hdays r hr ha hn
  obtain ⟨df2', i, f, act, hOut', e2, hfit, -⟩ := rowv r0 hr hact hname
  rw [hOut] at hOut'
  cases hOut'
  obtain ⟨u1, u2, u3, u4, u5⟩ := used_rows args.findOutliers args.start df df2 hOut
  have hPu := hP df2 hOut
  generalize hused : usedRows (defaultWeights df2).1 = used at e2 u1 u2 u5 hobs hPu
  have hsub : (used.rows.map Row.x).Sublist (df.rows.map Row.x) := by
    have h1 : (used.rows.map Row.x).Sublist ((defaultWeights df2).1.rows.map Row.x) := by
      rw [← hused]
      exact List.Sublist.map _ List.filter_sublist
    rw [u4] at h1
    exact h1.trans (List.Sublist.map _ List.filter_sublist)
  have hndu := hsub.nodup hnd
  have hudate : used.hasDate = true := by rw [u1, hdate]
  have hg : ∀ (ctx : Ctx K) b p, CacheCorrect reg ctx.ax ctx.adate ctx.cache → ctx.ax = scaleX m ((usableRows used).map Row.x) →
      ctx.adate = (if used.hasDate then some ((usableRows used).map Row.date) else none) →
      m.fBounds ⟨some ctx.ax, some ((usableRows used).map fun r => r.y.getD 0), none⟩ = .ok b → Admissible p b →
      m.fModel ctx (some p) false = .ok (vecOf ((usableRows used).map fun r => val p r.x r.date)) := by
    intro ctx b p a1 a2 a3 a4 a5
    rw [hudate, if_pos rfl] at a3
    rw [hm.value ctx _ _ p a2 a3 (by simp) ((hm.free _ _ _ a4).1 a5) a1 (fit_nonempty _ m used _ _ f e2 hfit), List.zipWith_map, List.zipWith_self]
  refine ⟨f.params, hlen _ _ _ _ e2 hfit, ?_, ?_⟩
  · intro r hr ha hn
    obtain ⟨df2', i', f', act', hOut', e2', hfit', hy⟩ := rowv r hr ha hn
    rw [hOut] at hOut'
    cases hOut'
    rw [hused] at e2'
    rw [hy]
    congr 1
    have hst := (C30_status _ m used _ _ f e2).2.2
    have hlong := hst.1.1 (.inl (hst.2.2.1 hfit))
    have hf := (C73_fitted _ _ (hmin i) (hmin i') m used _ _ _ _ f f' hu hm.params e2 e2' hfit hfit' val reg (hreg i) (hreg i') hg).2
      (by rw [hlen _ _ _ _ e2 hfit]; exact hm.straight)
    refine hm.determined used hPu _ _ (hlen _ _ _ _ e2' hfit') (hlen _ _ _ _ e2 hfit) hudate hndu hlong.1 hlong.2 ?_ _ _
    intro q hq
    exact (hf q hq).symm
  · intro q hq
    obtain ⟨b, h1, h2, -, h5⟩ := fit_minimal _ (hmin i) m used _ _ f hu hm.params e2 hfit val reg (hreg i) hg
    rw [hm.free _ _ _ h1] at h2
    obtain ⟨g, hv, hgv⟩ := valued_self used hndu
    have hne := normal_equations used g (val f.params) (val q) (by
      intro s
      rw [hv]
      have : (fun x t => val f.params x t + s * val q x t) = val (combined s f.params q) := by
        funext x t
        rw [hl s _ _ x t h2 hq]
      rw [this]
      apply h5
      rw [hm.free _ _ _ h1]
      simp [combined, h2, hq])
    rw [← hne]
    unfold errorSum errorProduct
    have e1 : ∀ F : Timestamp × Option K × Option K → K, ((observed res).map fun a => F (a.date, a.y, a.weight)) =
        (usableRows used).map fun r => F (r.date, r.y, r.weight) := by
      intro F
      have := congrArg (List.map F) hobs
      simpa [List.map_map, Function.comp_def] using this
    rw [e1 fun c => (c.2.2.getD 0) ^ 2 * (c.2.1.getD 0 - val f.params ((c.1 - t0) / (24 * 60 * 60 * 1000000000)) c.1) *
      val q ((c.1 - t0) / (24 * 60 * 60 * 1000000000)) c.1]
    congr 1
    apply List.map_congr_left
    intro r hr
    have hmem := (List.mem_filter.1 hr).1
    obtain ⟨k, hk, k1, k2, -⟩ := u5 r hmem
    have hd : r.date = t0 + r.x * (24 * 60 * 60 * 1000000000) := by
      rw [k1, k2]
      exact hdays k (List.mem_filter.1 hk).1
    have hx : (r.date - t0) / (24 * 60 * 60 * 1000000000) = r.x := by rw [hd]; omega
    have hsh : sharing (usableRows used) r = 1 := sharing_one _ (hndu.sublist (List.Sublist.map _ List.filter_sublist)) r hr
    rw [hsh, hgv r hmem]
    dsimp only
    rw [hx]
    unfold weightOf
    rw [u2, if_pos rfl]
    push_cast
    ring

/-! ### The constant model -/

def levelValue (p : List K) (_ : Int) (_ : Timestamp) : K := p.getD 0 0

omit [LinearOrder K] in
theorem one_param (p : List K) (h : p.length = 1) : ∃ a, p = [a] := by
  match p, h with
  | [a], _ => exact ⟨a, rfl⟩

theorem constant_unpinned : Unpinned (modelConstant : ForecastModel K) := by
  intro ar bd hb p hp v
  have hb := (Except.ok.inj hb).symm
  subst hb
  have : p = ((Ext.ninf : Ext K), (Ext.pinf : Ext K)) := by simpa [modelConstant, mkModel] using hp
  simp [this]

theorem constant_inParameters [IsStrictOrderedRing K] : LinearInParameters (modelConstant : ForecastModel K) (fun _ => none) levelValue where
  params := by simp [modelConstant, mkModel]
  free := by
    intro args b p hb
    have hb := (Except.ok.inj hb).symm
    subst hb
    exact admissible_default 1 p _
  value := by
    intro ctx xs ds p h1 h2 h3 h4 _ _
    obtain ⟨a, rfl⟩ := one_param p h4
    have hsc : scaleX (modelConstant : ForecastModel K) xs = xs.map fun x : Int => (x : K) := by
      unfold scaleX
      rw [if_neg]
      simp [modelConstant, mkModel]
    rw [hsc] at h1
    simp only [modelConstant, mkModel, fModelConstant, unpack1, bind, Except.bind, h1, List.map_map]
    congr 2
    have : ∀ (xs : List Int) (ds : List Timestamp), xs.length = ds.length →
        xs.map ((fun _ => a) ∘ fun x : Int => (x : K)) = List.zipWith (levelValue [a]) xs ds := by
      intro xs
      induction xs with
      | nil => intro ds _; rfl
      | cons x xs ih =>
        intro ds hl
        cases ds with
        | nil => cases hl
        | cons t ds =>
          rw [List.map_cons, ih ds (by simpa using hl)]
          rfl
    exact this xs ds h3
  straight := by
    intro p q x t hp hq
    obtain ⟨a, rfl⟩ := one_param p hp
    obtain ⟨a', rfl⟩ := one_param q hq
    simp only [halfway, levelValue, List.zipWith_cons_cons, List.getD_cons_zero]
  follows := by
    intro c d
    refine ⟨fun p => [c * p.getD 0 0 + d], ?_⟩
    intro p hp
    exact ⟨rfl, fun x t => by simp only [levelValue, List.getD_cons_zero]⟩
  determined := by
    intro used _ p p0 hp hp0 hd hnd hl hv he x t
    match hus : usableRows used, hl with
    | q :: l, _ => exact he q (by rw [hus]; simp)

omit [LinearOrder K] in
theorem level_linear : LinearPrediction 1 (levelValue : List K → Int → Timestamp → K) := by
  intro s p q x t hp hq
  obtain ⟨a, rfl⟩ := one_param p hp
  obtain ⟨a', rfl⟩ := one_param q hq
  simp only [combined, levelValue, List.zipWith_cons_cons, List.getD_cons_zero]

/-- **C88.** Fitted values of the linear trend: over the observations of the result, the errors, with squared weights, sum to zero, and so do the errors
multiplied by the number of the day. -/
theorem C88_line [FloorRing K] [IsStrictOrderedRing K] (w : World K) (args : RunArgs K) (source : String) (df : Frame K)
    (res : RunResult K) (h : runSingle w args source df = .ok res) (hmin : ∀ i, FindsMinimum (w.env source i))
    (hcand : ∀ df' cand, candidates w.ch args.models df' (runFreq df) = .ok cand → ∀ m' ∈ cand.2, m'.name = "linear" → m' = modelLinear)
    (hdate : df.hasDate = true) (t0 : Timestamp) (hdays : CountsDays df t0) (hnd : (df.rows.map Row.x).Nodup)
    (r0 : DRow K) (hr : r0 ∈ res.data) (hact : r0.isActuals = false) (hname : r0.model = "linear") :
    ∃ a b : K, ForecastsAre res "linear" (dayLine t0 a b) ∧ errorSum res (dayLine t0 a b) (fun _ => 1) = 0 ∧
      errorSum res (dayLine t0 a b) (dayLine t0 1 0) = 0 := by
  obtain ⟨p, -, h1, h2⟩ := balanced_run w args source df res h hmin modelLinear linear_unpinned (fun _ => none) lineValue linear_inParameters line_linear (by
    intro i
    constructor <;> simp [modelLinear, mkModel]) hcand hdate t0 hdays hnd r0 hr hact hname
  refine ⟨p.getD 0 0, p.getD 1 0, h1, ?_, ?_⟩
  · refine Eq.trans ?_ (h2 [0, 1] rfl)
    refine congrArg (errorSum res _) ?_
    funext t
    simp [lineValue]
  · exact h2 [1, 0] rfl

/-- **C88, weekly.** With weekly seasonality the errors sum to zero for every day of the week, and the errors multiplied by the number of the day sum to zero. -/
theorem C88_weekly [FloorRing K] [IsStrictOrderedRing K] (w : World K) (args : RunArgs K) (source : String) (df : Frame K)
    (res : RunResult K) (h : runSingle w args source df = .ok res) (hmin : ∀ i, FindsMinimum (w.env source i))
    (hcache : ∀ i f, (w.env source i).globalCache "a_weekday" = some f → f = cacheWeekday)
    (hcand : ∀ df' cand, candidates w.ch args.models df' (runFreq df) = .ok cand → ∀ m' ∈ cand.2, m'.name = "(linear+season_wday)" →
      m' = modelLinear.add modelSeasonWday)
    (hdate : df.hasDate = true) (t0 : Timestamp) (hdays : CountsDays df t0) (hnd : (df.rows.map Row.x).Nodup)
    (r0 : DRow K) (hr : r0 ∈ res.data) (hact : r0.isActuals = false) (hname : r0.model = "(linear+season_wday)") :
    ∃ (a b : K) (s : Int → K) (v : Timestamp → K), (∀ t, v t = dayLine t0 a b t + s (weekdayOfDay (t / (24 * 60 * 60 * 1000000000)))) ∧
      ForecastsAre res "(linear+season_wday)" v ∧
      (∀ k : Int, 0 ≤ k → k ≤ 6 → errorSum res v (fun t => if weekdayOfDay (t / (24 * 60 * 60 * 1000000000)) = k then 1 else 0) = 0) ∧
      errorSum res v (dayLine t0 1 0) = 0 := by
  obtain ⟨p, -, h1, h2⟩ := balanced_run w args source df res h hmin weeklyModel weekly_unpinned weeklyReg weeklyValue weekly_inParameters
    (by rw [weekly_nParams]; exact weekly_linear) (fun i => weekly_registered _ (hcache i)) (by rw [weekly_name]; exact hcand) hdate t0 hdays hnd r0 hr hact
    (by rw [weekly_name]; exact hname)
  rw [weekly_name] at h1
  rw [weekly_nParams] at h2
  have hwd : ∀ t, weekday t = weekdayOfDay (t / (24 * 60 * 60 * 1000000000)) := fun t => rfl
  refine ⟨p.getD 0 0, p.getD 1 0, fun k => ((0 : K) :: p.drop 2).getD k.toNat 0, _, fun t => rfl, h1, ?_, ?_⟩
  · intro k hk0 hk6
    have key : ∀ q : List K, q.length = 8 → (∀ x t, weeklyValue q x t = if weekday t = k then 1 else 0) → errorSum res
        (fun t => weeklyValue p ((t - t0) / (24 * 60 * 60 * 1000000000)) t)
        (fun t => if weekdayOfDay (t / (24 * 60 * 60 * 1000000000)) = k then 1 else 0) = 0 := by
      intro q hq hv
      have := h2 q hq
      simp only [hv, hwd] at this
      exact this
    have h7 := weekday_range06
    have : k = 0 ∨ k = 1 ∨ k = 2 ∨ k = 3 ∨ k = 4 ∨ k = 5 ∨ k = 6 := by omega
    rcases this with rfl | rfl | rfl | rfl | rfl | rfl | rfl
    · refine key [0, 1, -1, -1, -1, -1, -1, -1] rfl ?_
      intro x t
      rw [weeklyValue_mem]
      have := h7 t
      split_ifs <;> first | omega | simp
    · refine key [0, 0, 1, 0, 0, 0, 0, 0] rfl ?_
      intro x t
      rw [weeklyValue_mem]
      split_ifs <;> first | omega | simp
    · refine key [0, 0, 0, 1, 0, 0, 0, 0] rfl ?_
      intro x t
      rw [weeklyValue_mem]
      split_ifs <;> first | omega | simp
    · refine key [0, 0, 0, 0, 1, 0, 0, 0] rfl ?_
      intro x t
      rw [weeklyValue_mem]
      split_ifs <;> first | omega | simp
    · refine key [0, 0, 0, 0, 0, 1, 0, 0] rfl ?_
      intro x t
      rw [weeklyValue_mem]
      split_ifs <;> first | omega | simp
    · refine key [0, 0, 0, 0, 0, 0, 1, 0] rfl ?_
      intro x t
      rw [weeklyValue_mem]
      split_ifs <;> first | omega | simp
    · refine key [0, 0, 0, 0, 0, 0, 0, 1] rfl ?_
      intro x t
      rw [weeklyValue_mem]
      split_ifs <;> first | omega | simp
  · refine Eq.trans ?_ (h2 [1, 0, 0, 0, 0, 0, 0, 0] rfl)
    refine congrArg (errorSum res _) ?_
    funext t
    simp [weeklyValue_mem, dayLine]

/-- **C88, totals.** If all observations have weight one, the fitted values add up to the observations. -/
theorem C88_total [FloorRing K] [IsStrictOrderedRing K] (w : World K) (args : RunArgs K) (source : String) (df : Frame K)
    (res : RunResult K) (h : runSingle w args source df = .ok res) (hmin : ∀ i, FindsMinimum (w.env source i))
    (hcand : ∀ df' cand, candidates w.ch args.models df' (runFreq df) = .ok cand → ∀ m' ∈ cand.2, m'.name = "linear" → m' = modelLinear)
    (hdate : df.hasDate = true) (t0 : Timestamp) (hdays : CountsDays df t0) (hnd : (df.rows.map Row.x).Nodup)
    (r0 : DRow K) (hr : r0 ∈ res.data) (hact : r0.isActuals = false) (hname : r0.model = "linear")
    (hone : ∀ a ∈ observed res, a.weight = some 1) :
    ∃ a b : K, ForecastsAre res "linear" (dayLine t0 a b) ∧
      ((observed res).map fun q => dayLine t0 a b q.date).sum = ((observed res).map fun q => q.y.getD 0).sum := by
  obtain ⟨a, b, h1, h2, -⟩ := C88_line w args source df res h hmin hcand hdate t0 hdays hnd r0 hr hact hname
  refine ⟨a, b, h1, ?_⟩
  generalize dayLine t0 a b = v at h2
  have : errorSum res v (fun _ => 1) = ((observed res).map fun a => a.y.getD 0).sum - ((observed res).map fun a => v a.date).sum := by
    unfold errorSum
    generalize observed res = l at hone
    induction l with
    | nil => simp
    | cons a l ih =>
      simp only [List.map_cons, List.sum_cons]
      rw [ih (fun b hb => hone b (List.mem_cons_of_mem _ hb)), hone a List.mem_cons_self]
      simp only [Option.getD_some]
      ring
  rw [this] at h2
  exact (sub_eq_zero.1 h2).symm

/-- **C88, constant.** The forecast of the constant model is one value: the mean of the observations, weighted with the squares of the weights. -/
theorem C88_constant [FloorRing K] [IsStrictOrderedRing K] (w : World K) (args : RunArgs K) (source : String) (df : Frame K)
    (res : RunResult K) (h : runSingle w args source df = .ok res) (hmin : ∀ i, FindsMinimum (w.env source i))
    (hcand : ∀ df' cand, candidates w.ch args.models df' (runFreq df) = .ok cand → ∀ m' ∈ cand.2, m'.name = "constant" → m' = modelConstant)
    (hdate : df.hasDate = true) (t0 : Timestamp) (hdays : CountsDays df t0) (hnd : (df.rows.map Row.x).Nodup)
    (r : DRow K) (hr : r ∈ res.data) (hact : r.isActuals = false) (hname : r.model = "constant") :
    0 < ((observed res).map fun a => (a.weight.getD 0) ^ 2).sum ∧
    r.y = some (((observed res).map fun a => (a.weight.getD 0) ^ 2 * a.y.getD 0).sum / ((observed res).map fun a => (a.weight.getD 0) ^ 2).sum) := by
  obtain ⟨p, hp, h1, h2⟩ := balanced_run w args source df res h hmin modelConstant constant_unpinned (fun _ => none) levelValue constant_inParameters
    level_linear (by
      intro i
      constructor <;> simp [modelConstant, mkModel]) hcand hdate t0 hdays hnd r hr hact hname
  have hy := h1 r hr hact hname
  have hone := h2 [1] rfl
  simp only [levelValue, List.getD_cons_zero] at hy hone
  have hsum : ∀ c : K, errorSum res (fun _ => c) (fun _ => 1) = ((observed res).map fun a => (a.weight.getD 0) ^ 2 * a.y.getD 0).sum -
      c * ((observed res).map fun a => (a.weight.getD 0) ^ 2).sum := by
    intro c
    unfold errorSum
    induction observed res with
    | nil => simp
    | cons a l ih =>
      simp only [List.map_cons, List.sum_cons]
      rw [ih]
      ring
  rw [hsum] at hone
  have hpos : 0 < ((observed res).map fun a => (a.weight.getD 0) ^ 2).sum := by
    have hne : observed res ≠ [] := by
      obtain ⟨df2, hOut, hobs⟩ := observed_rows w args source df res h hdate
      have hval := fun (ctx : Ctx K) xs ds p h1 h2 h3 h4 (h5 : ∀ k, ctx.cache k = none) h6 =>
        (constant_inParameters (K := K)).value ctx xs ds p h1 h2 h3 h4 (by intro k v hk; rw [h5] at hk; cases hk) h6
      obtain ⟨df2', i, f, act, hOut', e2, hfit, -⟩ := row_value w args source df res h modelConstant hcand levelValue hval (by
        intro i used act f e hf
        obtain ⟨-, ctx, guess, b, r, -, -, -, h4, h5, h6, h7, -⟩ := fitModel_solver _ _ _ _ _ f constant_unpinned constant_inParameters.params e hf
        rw [h7]
        exact (constant_inParameters.free _ _ _ h4).1 (hmin i _ _ _ _ h5 h6).1) hdate t0 hdays r hr hact hname
      rw [hOut] at hOut'
      cases hOut'
      obtain ⟨hlen, -⟩ := fitModel_solver _ _ _ _ _ f constant_unpinned constant_inParameters.params e2 hfit
      intro he
      rw [he, List.map_nil] at hobs
      have := congrArg List.length hobs
      simp only [List.length_nil, List.length_map] at this
      omega
    have hall : ∀ a ∈ observed res, 0 < (a.weight.getD 0) ^ 2 := by
      intro a ha
      have := (List.mem_filter.1 ha).2
      simp only [Bool.and_eq_true, decide_eq_true_eq] at this
      exact pow_pos this.2 2
    generalize observed res = l at hne hall
    match l, hne with
    | a :: l, _ =>
      rw [List.map_cons, List.sum_cons]
      have : 0 ≤ (l.map fun a : DRow K => (a.weight.getD 0) ^ 2).sum := by
        apply List.sum_nonneg
        intro e he
        obtain ⟨b, hb, rfl⟩ := List.mem_map.1 he
        exact sq_nonneg _
      have := hall a List.mem_cons_self
      linarith
  refine ⟨hpos, ?_⟩
  rw [hy]
  congr 1
  rw [eq_div_iff hpos.ne']
  linarith

/-! ### Concrete runs -/

/-- A solver that returns given parameters; it is exact if these are the least squares solution. -/
def givenEnv (p : List ℚ) : Env ℚ :=
  { demoEnv with
    lsq := fun f _ b => match f p with
      | .ok (.vec l) => if b.lo.length = p.length then .ok (some ⟨true, some ((l.map fun e => (e.getD 0) ^ 2).sum / 2), p⟩) else .ok none
      | _ => .ok none }

/-- Five days that lie on no line, with weights. -/
def scatterFrame : Frame ℚ := ⟨true, true, [⟨4 * DAY, 0, some 1, some 1⟩, ⟨5 * DAY, 1, some 4, some 1⟩, ⟨6 * DAY, 2, some 3, some 2⟩, ⟨7 * DAY, 3, none, some 1⟩,
  ⟨8 * DAY, 4, some 9, some 1⟩]⟩

/-- Least squares: `55/31 * x + 13/31` for the line, `26/7` for the constant. -/
def scatterRun (p : List ℚ) (m : ForecastModel ℚ) : Option (RunResult ℚ) :=
  (runSingle { demoWorld with env := fun _ _ => givenEnv p } (demoArgs [m] (some [])) "s" scatterFrame).toOption

/-- Values of the forecast rows, sum of the errors, and sum of the errors times the number of the day. -/
example : ((scatterRun [55 / 31, 13 / 31] modelLinear).map fun r => ((r.data.filter fun q => !q.isActuals).map (fun q => (q.date / DAY, q.y)),
      errorSum r (dayLine (4 * DAY) (55 / 31) (13 / 31)) (fun _ => 1), errorSum r (dayLine (4 * DAY) (55 / 31) (13 / 31)) (dayLine (4 * DAY) 1 0))) =
    some ([(4, some (13 / 31)), (5, some (68 / 31)), (6, some (123 / 31)), (7, some (178 / 31)), (8, some (233 / 31)), (9, some (288 / 31)),
      (10, some (343 / 31)), (11, some (398 / 31))], 0, 0) := by decide +kernel

example : ((scatterRun [26 / 7] modelConstant).map fun r => ((r.data.filter fun q => !q.isActuals).map (fun q => q.y)).dedup) = some [some (26 / 7)] ∧
    (26 / 7 : ℚ) = (1 ^ 2 * 1 + 1 ^ 2 * 4 + 2 ^ 2 * 3 + 1 ^ 2 * 9) / (1 ^ 2 + 1 ^ 2 + 2 ^ 2 + 1 ^ 2) := by decide +kernel

/-- The hypotheses are met by the run of the example for C69 with a solver that is proved exact. -/
example : ∃ res a b, runSingle lineWorld (demoArgs [modelLinear] (some [])) "s" lineFrame = .ok res ∧ ForecastsAre res "linear" (dayLine (4 * DAY) a b) ∧
    errorSum res (dayLine (4 * DAY) a b) (fun _ => 1) = 0 ∧ (observed res).length = 4 := by
  have facts : (match runSingle lineWorld (demoArgs [modelLinear] (some [])) "s" lineFrame with
      | .ok res => decide ((observed res).length = 4) && res.data.any fun r => !r.isActuals && decide (r.model = "linear")
      | .error _ => false) = true := by decide +kernel
  cases h : runSingle lineWorld (demoArgs [modelLinear] (some [])) "s" lineFrame with
  | error e => rw [h] at facts; cases facts
  | ok res =>
    rw [h] at facts
    simp only [Bool.and_eq_true, decide_eq_true_eq, List.any_eq_true, Bool.not_eq_true'] at facts
    obtain ⟨f1, r0, f2, f3, f4⟩ := facts
    obtain ⟨a, b, a1, a2, -⟩ := C88_line lineWorld _ "s" lineFrame res h (fun _ => knownEnv_minimum _) (by
      intro df' cand hc m hm hn
      have e : candidates lineWorld.ch (demoArgs [modelLinear] (some [])).models df' (runFreq lineFrame) = .ok (.add, [modelLinear]) := rfl
      rw [e] at hc
      cases hc
      simpa using hm) rfl (4 * DAY) (by unfold CountsDays; decide +kernel) (by decide +kernel) r0 f2 f3 f4
    exact ⟨res, a, b, rfl, a1, a2, f1⟩

end Anticipy
