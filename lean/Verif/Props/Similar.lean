import Verif.Spec.Similar
import Verif.Props.Unique
import Verif.Props.SolverChoice

/-
C76: only the ratio of the weights matters. C77: a series moved in time by whole weeks has the same forecast, moved by as much.
-/
namespace Anticipy
open Spec
variable {K : Type} [Field K] [LinearOrder K]

/-- Fitted values for similar samples. -/
theorem similar_fitted [IsStrictOrderedRing K] (env env' : Env K) (hmin : FindsMinimum env) (hmin' : FindsMinimum env') (m : ForecastModel K)
    (df df' : Frame K) (s : Int) (c d : K) (hc : c ≠ 0) (hsim : Similar s c d df df')
    (actuals actuals' : Option (Frame K)) (k k' : Bool) (f f' : FitResult K) (hu : Unpinned m) (hdate : df.hasDate = true)
    (h : fitModel env m df actuals k = .ok f) (h' : fitModel env' m df' actuals' k' = .ok f') (hf : f.isFit = true) (hf' : f'.isFit = true)
    (val : List K → Int → Timestamp → K) (reg : Registry K) (hreg : Registered env.globalCache reg m) (hreg' : Registered env'.globalCache reg m)
    {P : Frame K → Prop} (hm : LinearInParameters m reg val P) (hshift : ∀ p x t, val p x (t + s) = val p x t) :
    f.params.length = m.nParams ∧ f'.params.length = m.nParams ∧
    ∀ r ∈ usableRows df, val f'.params r.x r.date = c * val f.params r.x r.date + d := by
  have hval : ∀ (df : Frame K), df.hasDate = true → (usableRows df).map Row.x ≠ [] → ∀ (ctx : Ctx K) b p, CacheCorrect reg ctx.ax ctx.adate ctx.cache →
      ctx.ax = scaleX m ((usableRows df).map Row.x) →
      ctx.adate = (if df.hasDate then some ((usableRows df).map Row.date) else none) →
      m.fBounds ⟨some ctx.ax, some ((usableRows df).map fun r => r.y.getD 0), none⟩ = .ok b → Admissible p b →
      m.fModel ctx (some p) false = .ok (vecOf ((usableRows df).map fun r => val p r.x r.date)) := by
    intro df hd hne ctx b p a1 a2 a3 a4 a5
    rw [hd, if_pos rfl] at a3
    rw [hm.value ctx _ _ p a2 a3 (by simp) ((hm.free _ _ _ a4).1 a5) a1 hne, List.zipWith_map, List.zipWith_self]
  obtain ⟨b, h1, h2, -, h5⟩ := fit_minimal env hmin m df actuals k f hu hm.params h hf val reg hreg (hval df hdate (fit_nonempty _ m _ _ _ f h hf))
  obtain ⟨b', h1', h2', -, h5'⟩ := fit_minimal env' hmin' m _ actuals' k' f' hu hm.params h' hf' val reg hreg' (hval df' (hsim.dated.trans hdate) (fit_nonempty _ m _ _ _ f' h' hf'))
  rw [hm.free _ _ _ h1] at h2
  rw [hm.free _ _ _ h1'] at h2'
  obtain ⟨T, hT⟩ := hm.follows c d
  obtain ⟨S, hS⟩ := hm.follows c⁻¹ (-(c⁻¹ * d))
  obtain ⟨t1, t2⟩ := hT _ h2
  have hmid : (halfway (T f.params) f'.params).length = m.nParams := by simp [halfway, t1, h2']
  obtain ⟨s1, s2⟩ := hS _ hmid
  obtain ⟨κ, hκ, hmis⟩ := hsim.misfits
  have key := misfit_unique df' (val (T f.params)) (val f'.params) (val (halfway (T f.params) f'.params)) (fun x t => hm.straight _ _ x t t1 h2') (by
      rw [hmis (val f.params) (val (T f.params)) (by intro x t; rw [hshift, t2]),
        hmis (val (S (halfway (T f.params) f'.params))) (val (halfway (T f.params) f'.params)) (by
          intro x t
          rw [hshift, s2]
          field_simp
          ring)]
      exact mul_le_mul_of_nonneg_left (h5 _ ((hm.free _ _ _ h1).2 s1)) hκ)
    (h5' _ ((hm.free _ _ _ h1').2 hmid))
  refine ⟨h2, h2', ?_⟩
  intro r hr
  obtain ⟨i, hi, rfl⟩ := List.mem_iff_getElem.1 hr
  have hlen : (usableRows df').length = (usableRows df).length := by simpa using congrArg List.length hsim.xs
  have hi' : i < (usableRows df').length := by omega
  have e1 : ((usableRows df')[i]).x = ((usableRows df)[i]).x := by
    have := congrArg (fun l : List Int => l[i]?) hsim.xs
    simpa [List.getElem?_map, hi, hi'] using this
  have e2 : ((usableRows df')[i]).date = ((usableRows df)[i]).date + s := by
    have := congrArg (fun l : List Timestamp => l[i]?) hsim.dates
    simpa [List.getElem?_map, hi, hi'] using this
  have := key _ (List.getElem_mem hi')
  rw [e1, e2, hshift, hshift, t2] at this
  exact this.symm

/-- Forecasts for similar samples. -/
theorem similar_run [FloorRing K] [IsStrictOrderedRing K] (w w' : World K) (args args' : RunArgs K) (source source' : String) (df df' : Frame K)
    (s : Int) (c d : K) (hc : c ≠ 0) (res res' : RunResult K) (h : runSingle w args source df = .ok res) (h' : runSingle w' args' source' df' = .ok res')
    (hsim : ∀ df2 df2', applyOutliers args.findOutliers (filterStart args.start df) = .ok df2 →
      applyOutliers args'.findOutliers (filterStart args'.start df') = .ok df2' →
      Similar s c d (usedRows (defaultWeights df2).1) (usedRows (defaultWeights df2').1))
    (hmin : ∀ i, FindsMinimum (w.env source i)) (hmin' : ∀ i, FindsMinimum (w'.env source' i))
    (m : ForecastModel K) (hu : Unpinned m) (reg : Registry K) (val : List K → Int → Timestamp → K) {P : Frame K → Prop} (hm : LinearInParameters m reg val P)
    (hshift : ∀ p x t, val p x (t + s) = val p x t)
    (hreg : ∀ i, Registered (w.env source i).globalCache reg m) (hreg' : ∀ i, Registered (w'.env source' i).globalCache reg m)
    (hcand : ∀ df'' cand, candidates w.ch args.models df'' (runFreq df) = .ok cand → ∀ m' ∈ cand.2, m'.name = m.name → m' = m)
    (hcand' : ∀ df'' cand, candidates w'.ch args'.models df'' (runFreq df') = .ok cand → ∀ m' ∈ cand.2, m'.name = m.name → m' = m)
    (hdate : df.hasDate = true) (hdate' : df'.hasDate = true) (t0 : Timestamp) (hdays : CountsDays df t0) (hdays' : CountsDays df' (t0 + s))
    (hnd : (df.rows.map Row.x).Nodup)
    (r r' : DRow K) (hr : r ∈ res.data) (hr' : r' ∈ res'.data) (hact : r.isActuals = false) (hact' : r'.isActuals = false)
    (hname : r.model = m.name) (hname' : r'.model = m.name) (hsame : r'.date = r.date + s)
    (hP : ∀ df2, applyOutliers args.findOutliers (filterStart args.start df) = .ok df2 → P (usedRows (defaultWeights df2).1) := by intros; trivial) :
    ∃ v, r.y = some v ∧ r'.y = some (c * v + d) := by
  have hlen : ∀ (env : Env K), FindsMinimum env → ∀ (used : Frame K) act cc f, fitModel env m used act cc = .ok f → f.isFit = true →
      f.params.length = m.nParams := by
    intro env he used act cc f e hf
    obtain ⟨-, ctx, guess, b, r, -, -, -, h4, h5, h6, h7, -⟩ := fitModel_solver _ m _ _ _ f hu hm.params e hf
    rw [h7]
    exact (hm.free _ _ _ h4).1 (he _ _ _ _ h5 h6).1
  have hval := fun (ctx : Ctx K) xs ds p h1 h2 h3 h4 (h5 : ∀ k, ctx.cache k = none) h6 =>
    hm.value ctx xs ds p h1 h2 h3 h4 (by intro k v hk; rw [h5] at hk; cases hk) h6
  obtain ⟨df2, i, f, act, hOut, e2, hfit, hy⟩ := row_value w args source df res h m hcand val hval
    (fun i used act f e hf => hlen _ (hmin i) used act _ f e hf) hdate t0 hdays r hr hact hname
  obtain ⟨df2', i', f', act', hOut', e2', hfit', hy'⟩ := row_value w' args' source' _ res' h' m hcand' val hval
    (fun i used act f e hf => hlen _ (hmin' i) used act _ f e hf) hdate' (t0 + s) hdays' r' hr' hact' hname'
  have hs := hsim df2 df2' hOut hOut'
  obtain ⟨u1, u2, u3, u4, u5⟩ := used_rows args.findOutliers args.start df df2 hOut
  have hPu := hP df2 hOut
  generalize hused : usedRows (defaultWeights df2).1 = used at e2 hs u1 u2 u5 hPu
  have hsub : (used.rows.map Row.x).Sublist (df.rows.map Row.x) := by
    have h1 : (used.rows.map Row.x).Sublist ((defaultWeights df2).1.rows.map Row.x) := by
      rw [← hused]
      exact List.Sublist.map _ List.filter_sublist
    rw [u4] at h1
    exact h1.trans (List.Sublist.map _ List.filter_sublist)
  have hst := (C30_status _ m used _ _ f e2).2.2
  have hlong := hst.1.1 (.inl (hst.2.2.1 hfit))
  have hudate : used.hasDate = true := by rw [u1, hdate]
  obtain ⟨l1, l2, hfv⟩ := similar_fitted _ _ (hmin i) (hmin' i') m used _ s c d hc hs _ _ _ _ f f' hu hudate e2 e2' hfit hfit' val reg (hreg i) (hreg' i')
    hm hshift
  obtain ⟨T, hT⟩ := hm.follows c d
  obtain ⟨t1, t2⟩ := hT _ l1
  refine ⟨_, hy, ?_⟩
  rw [hy', hsame, ← t2, hshift, add_sub_add_right_eq_sub]
  congr 1
  refine hm.determined used hPu _ _ l2 t1 hudate (hsub.nodup hnd) hlong.1 hlong.2 ?_ _ _
  intro q hq
  rw [hfv q hq, t2]

/-! ### Weights -/

theorem usableRows_reweighted [IsStrictOrderedRing K] (k : K) (hk : 0 < k) (df : Frame K) :
    usableRows (reweighted k df) = (usableRows df).map fun r => { r with weight := r.weight.map fun w => k * w } := by
  unfold usableRows reweighted
  dsimp only
  rw [List.filter_map]
  congr 1
  apply List.filter_congr
  intro r _
  obtain ⟨t, x, y, w⟩ := r
  simp only [Function.comp_def, decide_eq_decide]
  cases w with
  | none => simp [Usable]
  | some w => simp [Usable, mul_pos_iff_of_pos_left hk]

theorem sharing_image (g : Row K → Row K) (hg : ∀ r, (g r).x = r.x) (l : List (Row K)) (r : Row K) : sharing (l.map g) (g r) = sharing l r := by
  unfold sharing
  rw [List.countP_map]
  simp only [Function.comp_def, hg]

theorem reweighted_similar [IsStrictOrderedRing K] (k : K) (hk : 0 < k) (df : Frame K) (hw : df.hasWeight = true) : Similar 0 1 0 df (reweighted k df) where
  dated := rfl
  xs := by rw [usableRows_reweighted k hk, List.map_map]; rfl
  dates := by
    rw [usableRows_reweighted k hk, List.map_map]
    apply List.map_congr_left
    intro r _
    exact (add_zero _).symm
  misfits := by
    refine ⟨k ^ 2, sq_nonneg k, ?_⟩
    intro a a' ha
    unfold misfit
    rw [usableRows_reweighted k hk, List.map_map, ← List.sum_map_mul_left]
    congr 1
    apply List.map_congr_left
    intro r hr
    simp only [Function.comp_def]
    rw [sharing_image (fun r => { r with weight := r.weight.map fun w => k * w }) (fun _ => rfl)]
    have hus : Usable df.hasWeight r := by simpa using (List.mem_filter.1 hr).2
    obtain ⟨w, e, -⟩ := hus.2 hw
    have h1 : (reweighted k df).hasWeight = true := hw
    have h2 := ha r.x r.date
    rw [add_zero] at h2
    rw [h2, h1, hw]
    simp only [weightOf, if_true, e, Option.map_some, Option.getD_some]
    ring

omit [LinearOrder K] in
theorem filterStart_reweighted (k : K) (s : Option Timestamp) (df : Frame K) : filterStart s (reweighted k df) = reweighted k (filterStart s df) := by
  obtain ⟨hd, hw, rows⟩ := df
  cases s with
  | none => rfl
  | some t =>
    cases hd with
    | false => rfl
    | true =>
      simp only [filterStart, reweighted, if_true, List.filter_map]
      rfl

theorem applyOutliers_reweighted [FloorRing K] (k : K) (find : Bool) (df : Frame K) (hw : df.hasWeight = true) :
    applyOutliers find (reweighted k df) = (applyOutliers find df).map (reweighted k) := by
  unfold applyOutliers
  cases find with
  | false => rfl
  | true =>
    simp only [if_true, bind, Except.bind]
    have : getModelOutliers (reweighted k df) 3 = getModelOutliers df 3 := by
      have h1 : outlierKeys (reweighted k df) = outlierKeys df := by
        simp only [outlierKeys, reweighted, List.map_map, Function.comp_def]
      have h2 : (reweighted k df).rows.map Row.y = df.rows.map Row.y := by simp [reweighted, Function.comp_def]
      have h3 : (reweighted k df).hasDate = df.hasDate := rfl
      unfold getModelOutliers
      rw [h1, h2, h3]
    rw [this]
    cases getModelOutliers df 3 with
    | error e => rfl
    | ok masks =>
      have h1 : (reweighted k df).hasWeight = true := hw
      simp only [Except.map, h1, hw]
      simp only [reweighted, List.zipWith_map_left, List.map_zipWith]
      congr 3
      funext r b
      obtain ⟨t, x, y, w⟩ := r
      cases b <;> cases w <;> simp [outlierWeight]

theorem usedRows_reweighted [IsStrictOrderedRing K] (k : K) (hk : 0 < k) (df : Frame K) : usedRows (reweighted k df) = reweighted k (usedRows df) := by
  simp only [usedRows, reweighted, List.filter_map]
  congr 2
  apply List.filter_congr
  intro r _
  obtain ⟨t, x, y, w⟩ := r
  cases w <;> simp [Function.comp_def, hk]

theorem reweighted_stages [FloorRing K] [IsStrictOrderedRing K] (k : K) (hk : 0 < k) (df : Frame K) (hw : df.hasWeight = true) (args args' : RunArgs K)
    (hstart : args'.start = args.start) (hout : args'.findOutliers = args.findOutliers) (df2 df2' : Frame K)
    (h : applyOutliers args.findOutliers (filterStart args.start df) = .ok df2)
    (h' : applyOutliers args'.findOutliers (filterStart args'.start (reweighted k df)) = .ok df2') :
    Similar 0 (1 : K) 0 (usedRows (defaultWeights df2).1) (usedRows (defaultWeights df2').1) := by
  have hw1 : (filterStart args.start df).hasWeight = true := by
    unfold filterStart
    split <;> first | exact hw | (split_ifs <;> exact hw)
  rw [hstart, hout, filterStart_reweighted, applyOutliers_reweighted k _ _ hw1, h] at h'
  have h' := (Except.ok.inj h').symm
  subst h'
  have hw2 : df2.hasWeight = true := by
    unfold applyOutliers at h
    cases hf : args.findOutliers with
    | false =>
      rw [hf] at h
      have h := Except.ok.inj h
      rw [← h]; exact hw1
    | true =>
      rw [hf] at h
      simp only [if_true, bind, Except.bind] at h
      cases hg : getModelOutliers (filterStart args.start df) 3 with
      | error e => rw [hg] at h; cases h
      | ok masks => rw [hg] at h; cases h; rfl
  have e1 : (defaultWeights df2).1 = df2 := by unfold defaultWeights; rw [if_pos hw2]
  have e2 : (defaultWeights (reweighted k df2)).1 = reweighted k df2 := by unfold defaultWeights; rw [if_pos (show (reweighted k df2).hasWeight = true from hw2)]
  rw [e1, e2, usedRows_reweighted k hk]
  exact reweighted_similar k hk _ hw2

omit [LinearOrder K] in
theorem reweighted_days (k : K) (df : Frame K) (t0 : Timestamp) (h : CountsDays df t0) : CountsDays (reweighted k df) (t0 + 0) := by
  intro q hq
  obtain ⟨q0, h1, rfl⟩ := List.mem_map.1 hq
  rw [add_zero]
  exact h q0 h1

theorem runFreq_reweighted (k : K) (df : Frame K) : runFreq (reweighted k df) = runFreq df := by
  unfold runFreq
  have : (reweighted k df).rows.map Row.date = df.rows.map Row.date := by simp [reweighted, Function.comp_def]
  have h1 : (reweighted k df).hasDate = df.hasDate := rfl
  rw [this, h1]

/-- **C76.** Dated series with weights: the forecast of the linear trend for a date is the same when all weights are multiplied by a positive number.
Everything else can differ between the two runs as in C73. -/
theorem C76_line [FloorRing K] [IsStrictOrderedRing K] (w w' : World K) (args args' : RunArgs K) (source source' : String) (df : Frame K) (k : K)
    (hk : 0 < k) (hw : df.hasWeight = true) (res res' : RunResult K) (h : runSingle w args source df = .ok res)
    (h' : runSingle w' args' source' (reweighted k df) = .ok res')
    (hstart : args'.start = args.start) (hout : args'.findOutliers = args.findOutliers)
    (hmin : ∀ i, FindsMinimum (w.env source i)) (hmin' : ∀ i, FindsMinimum (w'.env source' i))
    (hcand : ∀ df' cand, candidates w.ch args.models df' (runFreq df) = .ok cand → ∀ m ∈ cand.2, m.name = "linear" → m = modelLinear)
    (hcand' : ∀ df' cand, candidates w'.ch args'.models df' (runFreq df) = .ok cand → ∀ m ∈ cand.2, m.name = "linear" → m = modelLinear)
    (hdate : df.hasDate = true) (t0 : Timestamp) (hdays : CountsDays df t0) (hnd : (df.rows.map Row.x).Nodup)
    (r r' : DRow K) (hr : r ∈ res.data) (hr' : r' ∈ res'.data) (hact : r.isActuals = false) (hact' : r'.isActuals = false)
    (hname : r.model = "linear") (hname' : r'.model = "linear") (hsame : r'.date = r.date) : r'.y = r.y := by
  obtain ⟨v, e1, e2⟩ := similar_run w w' args args' source source' df (reweighted k df) 0 1 0 one_ne_zero res res' h h'
    (reweighted_stages k hk df hw args args' hstart hout) hmin hmin' modelLinear linear_unpinned (fun _ => none) lineValue
    linear_inParameters (by intro p x t; rw [add_zero]) (by intro i; constructor <;> simp [modelLinear, mkModel])
    (by intro i; constructor <;> simp [modelLinear, mkModel]) hcand
    (by rw [runFreq_reweighted]; exact hcand') hdate hdate t0 hdays
    (reweighted_days k df t0 hdays) hnd r r' hr hr' hact hact' hname hname' (by rw [add_zero]; exact hsame)
  rw [e1, e2, one_mul, add_zero]

/-- **C76, weekly.** The same for the linear trend with weekly seasonality. -/
theorem C76_weekly [FloorRing K] [IsStrictOrderedRing K] (w w' : World K) (args args' : RunArgs K) (source source' : String) (df : Frame K) (k : K)
    (hk : 0 < k) (hw : df.hasWeight = true) (res res' : RunResult K) (h : runSingle w args source df = .ok res)
    (h' : runSingle w' args' source' (reweighted k df) = .ok res')
    (hstart : args'.start = args.start) (hout : args'.findOutliers = args.findOutliers)
    (hmin : ∀ i, FindsMinimum (w.env source i)) (hmin' : ∀ i, FindsMinimum (w'.env source' i))
    (hcache : ∀ i f, (w.env source i).globalCache "a_weekday" = some f → f = cacheWeekday)
    (hcache' : ∀ i f, (w'.env source' i).globalCache "a_weekday" = some f → f = cacheWeekday)
    (hcand : ∀ df' cand, candidates w.ch args.models df' (runFreq df) = .ok cand → ∀ m ∈ cand.2, m.name = "(linear+season_wday)" →
      m = modelLinear.add modelSeasonWday)
    (hcand' : ∀ df' cand, candidates w'.ch args'.models df' (runFreq df) = .ok cand → ∀ m ∈ cand.2, m.name = "(linear+season_wday)" →
      m = modelLinear.add modelSeasonWday)
    (hdate : df.hasDate = true) (t0 : Timestamp) (hdays : CountsDays df t0) (hnd : (df.rows.map Row.x).Nodup)
    (r r' : DRow K) (hr : r ∈ res.data) (hr' : r' ∈ res'.data) (hact : r.isActuals = false) (hact' : r'.isActuals = false)
    (hname : r.model = "(linear+season_wday)") (hname' : r'.model = "(linear+season_wday)") (hsame : r'.date = r.date) : r'.y = r.y := by
  obtain ⟨v, e1, e2⟩ := similar_run w w' args args' source source' df (reweighted k df) 0 1 0 one_ne_zero res res' h h'
    (reweighted_stages k hk df hw args args' hstart hout) hmin hmin' weeklyModel weekly_unpinned weeklyReg weeklyValue
    weekly_inParameters (by intro p x t; rw [add_zero]) (fun i => weekly_registered _ (hcache i)) (fun i => weekly_registered _ (hcache' i))
    (by rw [weekly_name]; exact hcand) (by rw [runFreq_reweighted, weekly_name]; exact hcand') hdate hdate t0 hdays
    (reweighted_days k df t0 hdays) hnd r r' hr hr' hact hact' (by rw [weekly_name]; exact hname) (by rw [weekly_name]; exact hname')
    (by rw [add_zero]; exact hsame)
  rw [e1, e2, one_mul, add_zero]

/-! ### Dates -/

/-- A row of the working table of outlier detection, moved. -/
def ORow.moved (s : Int) (r : ORow K) : ORow K := { r with key := r.key + s }

omit [Field K] [LinearOrder K] in
theorem mkRows_moved (s : Int) : ∀ (ks : List Int) (ds : List (Option K)) (cs is : List Bool) (gs : List Nat),
    mkRows (ks.map fun k => k + s) ds cs is gs = (mkRows ks ds cs is gs).map (ORow.moved s)
  | [], _, _, _, _ => by simp [mkRows]
  | _ :: _, [], _, _, _ => by simp [mkRows]
  | _ :: _, _ :: _, [], _, _ => by simp [mkRows]
  | _ :: _, _ :: _, _ :: _, [], _ => by simp [mkRows]
  | _ :: _, _ :: _, _ :: _, _ :: _, [] => by simp [mkRows]
  | k :: ks, d :: ds, c :: cs, i :: is, g :: gs => by
    simp only [mkRows, List.map_cons]
    rw [mkRows_moved s ks ds cs is gs]
    rfl

theorem groupRows_moved (s : Int) (rows : List (ORow K)) (g : Nat) : groupRows (rows.map (ORow.moved s)) g = (groupRows rows g).map (ORow.moved s) := by
  unfold groupRows
  rw [List.filter_map]
  rfl

theorem groupMean_moved (s : Int) (rows : List (ORow K)) (g : Nat) : groupMean (rows.map (ORow.moved s)) g = groupMean rows g := by
  unfold groupMean
  rw [groupRows_moved, List.filterMap_map]
  rfl

theorem groupMeanAbs_moved (s : Int) (rows : List (ORow K)) (g : Nat) : groupMeanAbs (rows.map (ORow.moved s)) g = groupMeanAbs rows g := by
  unfold groupMeanAbs
  rw [groupRows_moved, List.filterMap_map]
  rfl

theorem groupSpan_moved (s : Int) (rows : List (ORow K)) (g : Nat) :
    groupSpan true (rows.map (ORow.moved s)) g = (groupSpan true rows g).map fun p => (p.1 + s, p.2 + s) := by
  unfold groupSpan
  rw [groupRows_moved, List.head?_map, List.getLast?_map]
  cases (groupRows rows g).head? with
  | none => rfl
  | some a =>
    cases (groupRows rows g).getLast? with
    | none => rfl
    | some b => rfl

theorem maskStep_moved (s : Int) (thr : Option (K × K)) (rows : List (ORow K)) (r : ORow K) :
    maskStep true thr (rows.map (ORow.moved s)) (r.moved s) = maskStep true thr rows r := by
  unfold maskStep isStep
  rw [groupSpan_moved, groupMean_moved]
  have h1 : (r.moved s).group = r.group := rfl
  have h2 : (r.moved s).inGroup = r.inGroup := rfl
  have h3 : (r.moved s).key = r.key + s := rfl
  rw [h1, h2, h3]
  cases groupSpan true rows r.group with
  | none => rfl
  | some p => simp

theorem maskSpike_moved (s : Int) (thr : Option (K × K)) (rows : List (ORow K)) (r : ORow K) :
    maskSpike true thr (rows.map (ORow.moved s)) (r.moved s) = maskSpike true thr rows r := by
  unfold maskSpike isSpike
  rw [groupSpan_moved, groupMean_moved, groupMeanAbs_moved]
  have h1 : (r.moved s).group = r.group := rfl
  have h3 : (r.moved s).key = r.key + s := rfl
  rw [h1, h3]
  cases groupSpan true rows r.group with
  | none => rfl
  | some p => simp

theorem hasDup_moved (s : Int) (l : List Int) : hasDup (l.map fun k => k + s) = hasDup l := by
  induction l with
  | nil => rfl
  | cons a l ih =>
    simp only [List.map_cons, hasDup]
    rw [ih]
    congr 1
    simp

/-- **C77, outliers.** Outlier detection finds the same samples when all dates are moved. -/
theorem C77_outliers [FloorRing K] (s : Int) (df : Frame K) (n : Nat) : getModelOutliers (moved s df) n = getModelOutliers df n := by
  have h2 : (moved s df).rows.map Row.y = df.rows.map Row.y := by simp [moved, Function.comp_def]
  have h3 : (moved s df).hasDate = df.hasDate := rfl
  by_cases hd : df.hasDate = true
  · have h1 : outlierKeys (moved s df) = (outlierKeys df).map fun k => k + s := by
      simp only [outlierKeys, moved, hd, if_true, List.map_map, Function.comp_def]
    have h4 : outlierRows n ((outlierKeys df).map fun k => k + s) (df.rows.map Row.y) = (outlierRows n (outlierKeys df) (df.rows.map Row.y)).map (ORow.moved s) := by
      unfold outlierRows
      exact mkRows_moved s _ _ _ _ _
    unfold getModelOutliers
    dsimp only
    rw [h1, h2, h3, h4, hasDup_moved, hd]
    simp only [List.any_map, List.map_map]
    have h5 : (ORow.change ∘ ORow.moved s : ORow K → Bool) = ORow.change := rfl
    rw [h5]
    congr 2
    · congr 2
      · apply List.map_congr_left
        intro r _
        exact maskStep_moved s _ _ r
      · apply List.map_congr_left
        intro r _
        exact maskSpike_moved s _ _ r
  · have h1 : outlierKeys (moved s df) = outlierKeys df := by
      simp only [outlierKeys, moved, hd, Bool.false_eq_true, if_false, List.map_map, Function.comp_def]
    unfold getModelOutliers
    rw [h1, h2, h3]

omit [LinearOrder K] in
theorem filterStart_moved (s : Int) (start : Option Timestamp) (df : Frame K) :
    filterStart (start.map fun t => t + s) (moved s df) = moved s (filterStart start df) := by
  obtain ⟨hd, hw, rows⟩ := df
  cases start with
  | none => rfl
  | some t =>
    cases hd with
    | false => rfl
    | true =>
      simp only [filterStart, moved, Option.map_some, if_true, List.filter_map]
      congr 2
      apply List.filter_congr
      intro r _
      simp [Function.comp_def]

theorem applyOutliers_moved [FloorRing K] (s : Int) (find : Bool) (df : Frame K) :
    applyOutliers find (moved s df) = (applyOutliers find df).map (moved s) := by
  unfold applyOutliers
  cases find with
  | false => rfl
  | true =>
    simp only [if_true, bind, Except.bind]
    rw [C77_outliers]
    cases getModelOutliers df 3 with
    | error e => rfl
    | ok masks =>
      simp only [Except.map, moved, List.zipWith_map_left, List.map_zipWith]
      rfl

theorem defaultWeights_moved (s : Int) (df : Frame K) : (defaultWeights (moved s df)).1 = moved s (defaultWeights df).1 := by
  obtain ⟨hd, hw, rows⟩ := df
  cases hw with
  | false =>
    simp only [defaultWeights, moved, Bool.false_eq_true, if_false, List.map_map]
    rfl
  | true => rfl

theorem usedRows_moved (s : Int) (df : Frame K) : usedRows (moved s df) = moved s (usedRows df) := by
  simp only [usedRows, moved, List.filter_map]
  rfl

theorem usableRows_moved (s : Int) (df : Frame K) : usableRows (moved s df) = (usableRows df).map fun r => { r with date := r.date + s } := by
  unfold usableRows moved
  dsimp only
  rw [List.filter_map]
  rfl

theorem moved_similar [IsStrictOrderedRing K] (s : Int) (df : Frame K) : Similar s 1 0 df (moved s df) where
  dated := rfl
  xs := by rw [usableRows_moved, List.map_map]; rfl
  dates := by rw [usableRows_moved, List.map_map]; rfl
  misfits := by
    refine ⟨1, zero_le_one, ?_⟩
    intro a a' ha
    unfold misfit
    rw [usableRows_moved, List.map_map, one_mul]
    congr 1
    apply List.map_congr_left
    intro r hr
    simp only [Function.comp_def]
    rw [sharing_image (fun r => { r with date := r.date + s }) (fun _ => rfl), ha, one_mul, add_zero]
    rfl

theorem moved_stages [FloorRing K] [IsStrictOrderedRing K] (s : Int) (df : Frame K) (args args' : RunArgs K) (hstart : args'.start = args.start.map fun t => t + s)
    (hout : args'.findOutliers = args.findOutliers) (df2 df2' : Frame K) (h : applyOutliers args.findOutliers (filterStart args.start df) = .ok df2)
    (h' : applyOutliers args'.findOutliers (filterStart args'.start (moved s df)) = .ok df2') :
    Similar s (1 : K) 0 (usedRows (defaultWeights df2).1) (usedRows (defaultWeights df2').1) := by
  rw [hstart, hout, filterStart_moved, applyOutliers_moved, h] at h'
  have h' := (Except.ok.inj h').symm
  subst h'
  rw [defaultWeights_moved, usedRows_moved]
  exact moved_similar s _

omit [LinearOrder K] in
theorem moved_days (s : Int) (df : Frame K) (t0 : Timestamp) (h : CountsDays df t0) : CountsDays (moved s df) (t0 + s) := by
  intro q hq
  obtain ⟨q0, h1, rfl⟩ := List.mem_map.1 hq
  have := h q0 h1
  show q0.date + s = t0 + s + q0.x * _
  omega

/-- **C77.** A dated series moved in time by any amount (with the starting date moved as well) while its coordinates stay the same: the forecasts of the
linear trend are moved by the same amount. -/
theorem C77_line [FloorRing K] [IsStrictOrderedRing K] (w w' : World K) (args args' : RunArgs K) (source source' : String) (df : Frame K) (s : Int)
    (res res' : RunResult K) (h : runSingle w args source df = .ok res) (h' : runSingle w' args' source' (moved s df) = .ok res')
    (hstart : args'.start = args.start.map fun t => t + s) (hout : args'.findOutliers = args.findOutliers)
    (hmin : ∀ i, FindsMinimum (w.env source i)) (hmin' : ∀ i, FindsMinimum (w'.env source' i))
    (hcand : ∀ df' cand, candidates w.ch args.models df' (runFreq df) = .ok cand → ∀ m ∈ cand.2, m.name = "linear" → m = modelLinear)
    (hcand' : ∀ df' cand, candidates w'.ch args'.models df' (runFreq (moved s df)) = .ok cand → ∀ m ∈ cand.2, m.name = "linear" → m = modelLinear)
    (hdate : df.hasDate = true) (t0 : Timestamp) (hdays : CountsDays df t0) (hnd : (df.rows.map Row.x).Nodup)
    (r r' : DRow K) (hr : r ∈ res.data) (hr' : r' ∈ res'.data) (hact : r.isActuals = false) (hact' : r'.isActuals = false)
    (hname : r.model = "linear") (hname' : r'.model = "linear") (hsame : r'.date = r.date + s) : r'.y = r.y := by
  obtain ⟨v, e1, e2⟩ := similar_run w w' args args' source source' df (moved s df) s 1 0 one_ne_zero res res' h h'
    (moved_stages s df args args' hstart hout) hmin hmin' modelLinear linear_unpinned (fun _ => none) lineValue
    linear_inParameters (by intro p x t; rfl) (by intro i; constructor <;> simp [modelLinear, mkModel])
    (by intro i; constructor <;> simp [modelLinear, mkModel]) hcand hcand' hdate hdate t0 hdays
    (moved_days s df t0 hdays) hnd r r' hr hr' hact hact' hname hname' hsame
  rw [e1, e2, one_mul, add_zero]

/-- Whole weeks do not change the day of the week. -/
theorem weekday_moved (k : Int) (t : Timestamp) : weekday (t + k * (7 * (24 * 60 * 60 * 1000000000))) = weekday t := by
  unfold weekday weekdayOfDay dayOf DAY
  omega

/-- **C77, weekly.** Moved by whole weeks: the same for the linear trend with weekly seasonality. -/
theorem C77_weekly [FloorRing K] [IsStrictOrderedRing K] (w w' : World K) (args args' : RunArgs K) (source source' : String) (df : Frame K) (k : Int)
    (res res' : RunResult K) (h : runSingle w args source df = .ok res) (s : Int) (hs : s = k * (7 * (24 * 60 * 60 * 1000000000)))
    (h' : runSingle w' args' source' (moved s df) = .ok res')
    (hstart : args'.start = args.start.map fun t => t + s) (hout : args'.findOutliers = args.findOutliers)
    (hmin : ∀ i, FindsMinimum (w.env source i)) (hmin' : ∀ i, FindsMinimum (w'.env source' i))
    (hcache : ∀ i f, (w.env source i).globalCache "a_weekday" = some f → f = cacheWeekday)
    (hcache' : ∀ i f, (w'.env source' i).globalCache "a_weekday" = some f → f = cacheWeekday)
    (hcand : ∀ df' cand, candidates w.ch args.models df' (runFreq df) = .ok cand → ∀ m ∈ cand.2, m.name = "(linear+season_wday)" →
      m = modelLinear.add modelSeasonWday)
    (hcand' : ∀ df' cand, candidates w'.ch args'.models df' (runFreq (moved s df)) = .ok cand → ∀ m ∈ cand.2, m.name = "(linear+season_wday)" →
      m = modelLinear.add modelSeasonWday)
    (hdate : df.hasDate = true) (t0 : Timestamp) (hdays : CountsDays df t0) (hnd : (df.rows.map Row.x).Nodup)
    (r r' : DRow K) (hr : r ∈ res.data) (hr' : r' ∈ res'.data) (hact : r.isActuals = false) (hact' : r'.isActuals = false)
    (hname : r.model = "(linear+season_wday)") (hname' : r'.model = "(linear+season_wday)") (hsame : r'.date = r.date + s) : r'.y = r.y := by
  obtain ⟨v, e1, e2⟩ := similar_run w w' args args' source source' df (moved s df) s 1 0 one_ne_zero res res' h h'
    (moved_stages s df args args' hstart hout) hmin hmin' weeklyModel weekly_unpinned weeklyReg weeklyValue
    weekly_inParameters (by intro p x t; unfold weeklyValue; rw [hs, weekday_moved]) (fun i => weekly_registered _ (hcache i))
    (fun i => weekly_registered _ (hcache' i))
    (by rw [weekly_name]; exact hcand) (by rw [weekly_name]; exact hcand') hdate hdate t0 hdays
    (moved_days s df t0 hdays) hnd r r' hr hr' hact hact' (by rw [weekly_name]; exact hname) (by rw [weekly_name]; exact hname') hsame
  rw [e1, e2, one_mul, add_zero]

/-! ### Concrete runs -/

/-- Weights in per cent. -/
example : ((runSingle lineWorld (demoArgs [modelLinear, modelConstant] (some [])) "s" (reweighted 100 lineFrame)).toOption.map fun r =>
    ((r.data.filter fun q => !q.isActuals).drop 5).map fun q => (q.date / DAY, q.model, q.y)) =
    some [(10, "linear", some 13), (11, "linear", some 15), (12, "linear", some 17)] := by decide +kernel

/-- Three days later. -/
example : ((runSingle lineWorld (demoArgs [modelLinear, modelConstant] (some [])) "s" (moved (3 * DAY) lineFrame)).toOption.map fun r =>
    ((r.data.filter fun q => !q.isActuals).drop 5).map fun q => (q.date / DAY, q.model, q.y)) =
    some [(13, "linear", some 13), (14, "linear", some 15), (15, "linear", some 17)] := by decide +kernel

/-- Two weeks earlier. -/
example : ((runSingle weeklyWorld weeklyArgs "s" (moved (-2 * (7 * (24 * 60 * 60 * 1000000000))) weeklyFrame)).toOption.map fun r =>
    ((r.data.filter fun q => !q.isActuals).drop 15).map fun q => (q.date / DAY, q.model, q.y)) =
    some [(5, "(linear+season_wday)", some (35 / 2)), (6, "(linear+season_wday)", some 17), (7, "(linear+season_wday)", some (37 / 2)),
      (8, "(linear+season_wday)", some 19)] := by decide +kernel

end Anticipy
