import Verif.Props.Balance

/-
C89: a forecast that comes true is not revised (constant, linear trend, linear trend with weekly seasonality).
-/
namespace Anticipy
open Spec
variable {K : Type} [Field K] [LinearOrder K]

omit [Field K] in
theorem usableRows_extended [Zero K] (df : Frame K) (extra : List (Row K)) :
    usableRows (extended df extra) = usableRows df ++ usableRows { df with rows := extra } := by
  unfold usableRows extended
  rw [List.filter_append]

/-- With one sample per coordinate, the misfit is a sum over the samples. -/
theorem misfit_nodup [IsStrictOrderedRing K] (df : Frame K) (hnd : (df.rows.map Row.x).Nodup) (a : Int → Timestamp → K) :
    misfit df a = ((usableRows df).map fun r => ((r.y.getD 0 - a r.x r.date) * weightOf df.hasWeight r) ^ 2).sum := by
  unfold misfit
  congr 1
  apply List.map_congr_left
  intro r hr
  have : sharing (usableRows df) r = 1 := sharing_one _ (hnd.sublist (List.Sublist.map _ List.filter_sublist)) r hr
  rw [this]
  simp

theorem misfit_extended [IsStrictOrderedRing K] (df : Frame K) (extra : List (Row K)) (hnd : ((extended df extra).rows.map Row.x).Nodup)
    (a : Int → Timestamp → K) : misfit (extended df extra) a = misfit df a + misfit { df with rows := extra } a := by
  have h : (extended df extra).rows.map Row.x = df.rows.map Row.x ++ extra.map Row.x := by
    unfold extended
    rw [List.map_append]
  have hnd' := hnd
  rw [h, List.nodup_append] at hnd'
  rw [misfit_nodup _ hnd, misfit_nodup df hnd'.1, misfit_nodup { df with rows := extra } hnd'.2.1, usableRows_extended, List.map_append, List.sum_append]
  rfl

omit [Field K] [LinearOrder K] in
theorem filterStart_extended (s : Option Timestamp) (df : Frame K) (extra : List (Row K)) :
    filterStart s (extended df extra) = extended (filterStart s df) (filterStart s { df with rows := extra }).rows := by
  obtain ⟨hd, hw, rows⟩ := df
  cases s with
  | none => rfl
  | some t =>
    cases hd with
    | false => rfl
    | true => simp [filterStart, extended]

theorem defaultWeights_extended (df : Frame K) (extra : List (Row K)) :
    (defaultWeights (extended df extra)).1 = extended (defaultWeights df).1 (defaultWeights { df with rows := extra }).1.rows := by
  obtain ⟨hd, hw, rows⟩ := df
  cases hw <;> simp [defaultWeights, extended]

theorem usedRows_extended (df : Frame K) (extra : List (Row K)) :
    usedRows (extended df extra) = extended (usedRows df) (usedRows { df with rows := extra }).rows := by
  simp [usedRows, extended]

/-- Forecasts of a model that is linear in its parameters are confirmed by samples that agree with them. -/
theorem confirmed_run [FloorRing K] [IsStrictOrderedRing K] (w w' : World K) (args args' : RunArgs K) (source source' : String) (df : Frame K)
    (extra : List (Row K)) (res res' : RunResult K) (h : runSingle w args source df = .ok res) (h' : runSingle w' args' source' (extended df extra) = .ok res')
    (hstart : args'.start = args.start) (hout : args.findOutliers = false) (hout' : args'.findOutliers = false)
    (hmin : ∀ i, FindsMinimum (w.env source i)) (hmin' : ∀ i, FindsMinimum (w'.env source' i))
    (m : ForecastModel K) (hu : Unpinned m) (reg : Registry K) (val : List K → Int → Timestamp → K) {P : Frame K → Prop} (hm : LinearInParameters m reg val P)
    (hreg : ∀ i, Registered (w.env source i).globalCache reg m) (hreg' : ∀ i, Registered (w'.env source' i).globalCache reg m)
    (hcand : ∀ df' cand, candidates w.ch args.models df' (runFreq df) = .ok cand → ∀ m' ∈ cand.2, m'.name = m.name → m' = m)
    (hcand' : ∀ df' cand, candidates w'.ch args'.models df' (runFreq (extended df extra)) = .ok cand → ∀ m' ∈ cand.2, m'.name = m.name → m' = m)
    (hdate : df.hasDate = true) (t0 : Timestamp) (hdays : CountsDays (extended df extra) t0) (hnd : ((extended df extra).rows.map Row.x).Nodup)
    (hcomes : ComesTrue res m.name extra)
    (r r' : DRow K) (hr : r ∈ res.data) (hr' : r' ∈ res'.data) (hact : r.isActuals = false) (hact' : r'.isActuals = false)
    (hname : r.model = m.name) (hname' : r'.model = m.name) (hsame : r'.date = r.date)
    (hP : ∀ df2, applyOutliers args.findOutliers (filterStart args.start df) = .ok df2 → P (usedRows (defaultWeights df2).1) := by intros; trivial) : r'.y = r.y := by
  have hlen : ∀ (env : Env K), FindsMinimum env → ∀ (used : Frame K) act cc f, fitModel env m used act cc = .ok f → f.isFit = true →
      f.params.length = m.nParams := by
    intro env he used act cc f e hf
    obtain ⟨-, ctx, guess, b, r, -, -, -, h4, h5, h6, h7, -⟩ := fitModel_solver _ m _ _ _ f hu hm.params e hf
    rw [h7]
    exact (hm.free _ _ _ h4).1 (he _ _ _ _ h5 h6).1
  have hval := fun (ctx : Ctx K) xs ds p h1 h2 h3 h4 (h5 : ∀ k, ctx.cache k = none) h6 =>
    hm.value ctx xs ds p h1 h2 h3 h4 (by intro k v hk; rw [h5] at hk; cases hk) h6
  have hdays0 : CountsDays df t0 := fun q hq => hdays q (List.mem_append_left _ hq)
  have hdays1 : ∀ q ∈ extra, q.date = t0 + q.x * (24 * 60 * 60 * 1000000000) := fun q hq => hdays q (List.mem_append_right _ hq)
  have hnd0 : (df.rows.map Row.x).Nodup := by
    refine hnd.sublist (List.Sublist.map _ ?_)
    exact List.sublist_append_left _ _
  have rowv := fun (r : DRow K) hr ha hn => row_value w args source df res h m hcand val hval
    (fun i used act f e hf => hlen _ (hmin i) used act _ f e hf) hdate t0 hdays0 r hr ha hn
  obtain ⟨df2, i, f, act, hOut, e2, hfit, hy⟩ := rowv r hr hact hname
  obtain ⟨df2', i', f', act', hOut', e2', hfit', hy'⟩ := row_value w' args' source' _ res' h' m hcand' val hval
    (fun i used act f e hf => hlen _ (hmin' i) used act _ f e hf) hdate t0 hdays r' hr' hact' hname'
  have hOut0 := hOut
  rw [hout] at hOut
  rw [hout', hstart, filterStart_extended] at hOut'
  have hOut := (Except.ok.inj hOut).symm
  have hOut' := (Except.ok.inj hOut').symm
  subst hOut'
  obtain ⟨u1, u2, u3, u4, u5⟩ := used_rows args.findOutliers args.start df df2 hOut0
  have hO1 : applyOutliers false (filterStart args.start { df with rows := extra }) = .ok (filterStart args.start { df with rows := extra }) := rfl
  obtain ⟨-, -, -, x4, x5⟩ := used_rows false args.start { df with rows := extra } _ hO1
  have hfs : filterStart args.start { df with rows := extra } = { filterStart args.start df with rows := (filterStart args.start { df with rows := extra }).rows } := by
    rw [filterStart_rows, filterStart_rows]
  rw [defaultWeights_extended, usedRows_extended] at e2'
  rw [← hfs, ← hOut] at e2'
  have hdw : ({ (defaultWeights df2).1 with rows := (defaultWeights (filterStart args.start { df with rows := extra })).1.rows } : Frame K) =
      (defaultWeights (filterStart args.start { df with rows := extra })).1 := by
    rw [hfs, hOut]
    obtain ⟨hd, hw, rows⟩ := filterStart args.start df
    cases hw <;> rfl
  rw [hdw] at e2'
  have hndu : ((extended (usedRows (defaultWeights df2).1) (usedRows (defaultWeights (filterStart args.start { df with rows := extra })).1).rows).rows.map Row.x).Nodup := by
    refine List.Sublist.nodup ?_ hnd
    unfold extended
    rw [List.map_append, List.map_append]
    refine List.Sublist.append ?_ ?_
    · have h1 : ((usedRows (defaultWeights df2).1).rows.map Row.x).Sublist ((defaultWeights df2).1.rows.map Row.x) := List.Sublist.map _ List.filter_sublist
      rw [u4] at h1
      exact h1.trans (List.Sublist.map _ List.filter_sublist)
    · have h1 : ((usedRows (defaultWeights (filterStart args.start { df with rows := extra })).1).rows.map Row.x).Sublist
          ((defaultWeights (filterStart args.start { df with rows := extra })).1.rows.map Row.x) := List.Sublist.map _ List.filter_sublist
      rw [x4] at h1
      exact h1.trans (List.Sublist.map _ List.filter_sublist)
  have hPu := hP df2 hOut0
  generalize hused : usedRows (defaultWeights df2).1 = used at e2 e2' u1 u2 u5 hndu hPu
  generalize (usedRows (defaultWeights (filterStart args.start { df with rows := extra })).1).rows = more at e2' x5 hndu
  have hudate : used.hasDate = true := by rw [u1, hdate]
  have hudate' : (extended used more).hasDate = true := hudate
  have hg : ∀ (used : Frame K), used.hasDate = true → (usableRows used).map Row.x ≠ [] → ∀ (ctx : Ctx K) b p, CacheCorrect reg ctx.ax ctx.adate ctx.cache →
      ctx.ax = scaleX m ((usableRows used).map Row.x) →
      ctx.adate = (if used.hasDate then some ((usableRows used).map Row.date) else none) →
      m.fBounds ⟨some ctx.ax, some ((usableRows used).map fun r => r.y.getD 0), none⟩ = .ok b → Admissible p b →
      m.fModel ctx (some p) false = .ok (vecOf ((usableRows used).map fun r => val p r.x r.date)) := by
    intro used hud hne ctx b p a1 a2 a3 a4 a5
    rw [hud, if_pos rfl] at a3
    rw [hm.value ctx _ _ p a2 a3 (by simp) ((hm.free _ _ _ a4).1 a5) a1 hne, List.zipWith_map, List.zipWith_self]
  have l1 := hlen _ (hmin i) _ _ _ _ e2 hfit
  have l2 := hlen _ (hmin' i') _ _ _ _ e2' hfit'
  have hst := (C30_status _ m used _ _ f e2).2.2
  have hlong := hst.1.1 (.inl (hst.2.2.1 hfit))
  have hst' := (C30_status _ m (extended used more) _ _ f' e2').2.2
  have hlong' := hst'.1.1 (.inl (hst'.2.2.1 hfit'))
  obtain ⟨b, b1, -, -, b4⟩ := fit_minimal _ (hmin i) m used _ _ f hu hm.params e2 hfit val reg (hreg i) (hg used hudate (fit_nonempty _ m used _ _ f e2 hfit))
  obtain ⟨b', c1, -, -, c4⟩ := fit_minimal _ (hmin' i') m _ _ _ f' hu hm.params e2' hfit' val reg (hreg' i') (hg _ hudate' (fit_nonempty _ m _ _ _ f' e2' hfit'))
  have hndused : (used.rows.map Row.x).Nodup := by
    refine hndu.sublist (List.Sublist.map _ ?_)
    exact List.sublist_append_left _ _
  have hzero : ∀ q ∈ more, q.y ≠ none → q.y = some (val f.params q.x q.date) := by
    intro q hq hqy
    obtain ⟨k, hk, k1, k2, k3, -⟩ := x5 q hq
    have hk := (List.mem_filter.1 hk).1
    obtain ⟨rr, n1, n2, n3, n4, n5⟩ := hcomes k hk (by rw [← k3]; exact hqy)
    obtain ⟨df2', i1, f1, act1, o1, g2, gfit, gy⟩ := rowv rr n1 n2 n3
    rw [hOut0] at o1
    cases o1
    rw [hused] at g2
    have hf := (C73_fitted _ _ (hmin i) (hmin i1) m used _ _ _ _ f f1 hu hm.params e2 g2 hfit gfit val reg (hreg i) (hreg i1) (hg used hudate (fit_nonempty _ m used _ _ f e2 hfit))).2
      (by rw [l1]; exact hm.straight)
    have hdet := hm.determined used hPu _ _ (hlen _ (hmin i1) _ _ _ _ g2 gfit) l1 hudate hndused hlong.1 hlong.2 (fun q hq => (hf q hq).symm)
    rw [k3, ← n5, gy, n4, k1, k2, hdet, hdays1 k hk]
    congr 2
    omega
  have hpos : ∀ a, 0 ≤ misfit { used with rows := more } a := by
    intro a
    unfold misfit
    apply List.sum_nonneg
    intro e he
    obtain ⟨q, -, rfl⟩ := List.mem_map.1 he
    exact sq_nonneg _
  have hno : misfit { used with rows := more } (val f.params) = 0 := by
    unfold misfit
    rw [List.map_congr_left (g := fun _ => (0 : K))]
    · simp
    · intro q hq
      have hus : Usable used.hasWeight q := by simpa using (List.mem_filter.1 hq).2
      have hqm := (List.mem_filter.1 hq).1
      rw [hzero q hqm (by obtain ⟨v, hv⟩ := hus.1; rw [hv]; simp)]
      simp
  have hh : (halfway f.params f'.params).length = m.nParams := by simp [halfway, l1, l2]
  have key := misfit_unique (extended used more) (val f.params) (val f'.params) (val (halfway f.params f'.params))
    (fun x t => hm.straight _ _ x t l1 l2) (by
      rw [misfit_extended used more hndu, misfit_extended used more hndu, hno]
      have := b4 _ ((hm.free _ _ _ b1).2 hh)
      have := hpos (val (halfway f.params f'.params))
      linarith)
    (c4 _ ((hm.free _ _ _ c1).2 hh))
  have hfin := hm.determined used hPu _ _ l2 l1 hudate hndused hlong.1 hlong.2 (by
    intro q hq
    exact (key q (by rw [usableRows_extended]; exact List.mem_append_left _ hq)).symm)
  rw [hy, hy', hsame, hfin]

/-- **C89.** A run on a dated series, and a second run on the series with further samples that are null or equal to the forecast of the linear trend
for their dates: both give the same forecast of the linear trend. Exact least squares, no search for outliers; the weights of the further samples are
arbitrary. -/
theorem C89_line [FloorRing K] [IsStrictOrderedRing K] (w w' : World K) (args args' : RunArgs K) (source source' : String) (df : Frame K)
    (extra : List (Row K)) (res res' : RunResult K) (h : runSingle w args source df = .ok res) (h' : runSingle w' args' source' (extended df extra) = .ok res')
    (hstart : args'.start = args.start) (hout : args.findOutliers = false) (hout' : args'.findOutliers = false)
    (hmin : ∀ i, FindsMinimum (w.env source i)) (hmin' : ∀ i, FindsMinimum (w'.env source' i))
    (hcand : ∀ df' cand, candidates w.ch args.models df' (runFreq df) = .ok cand → ∀ m' ∈ cand.2, m'.name = "linear" → m' = modelLinear)
    (hcand' : ∀ df' cand, candidates w'.ch args'.models df' (runFreq (extended df extra)) = .ok cand → ∀ m' ∈ cand.2, m'.name = "linear" → m' = modelLinear)
    (hdate : df.hasDate = true) (t0 : Timestamp) (hdays : CountsDays (extended df extra) t0) (hnd : ((extended df extra).rows.map Row.x).Nodup)
    (hcomes : ComesTrue res "linear" extra)
    (r r' : DRow K) (hr : r ∈ res.data) (hr' : r' ∈ res'.data) (hact : r.isActuals = false) (hact' : r'.isActuals = false)
    (hname : r.model = "linear") (hname' : r'.model = "linear") (hsame : r'.date = r.date) : r'.y = r.y :=
  confirmed_run w w' args args' source source' df extra res res' h h' hstart hout hout' hmin hmin' modelLinear linear_unpinned (fun _ => none) lineValue
    linear_inParameters (fun i => by constructor <;> simp [modelLinear, mkModel]) (fun i => by constructor <;> simp [modelLinear, mkModel]) hcand hcand' hdate t0 hdays hnd
    hcomes r r' hr hr' hact hact' hname hname' hsame


/-- **C89, constant.** -/
theorem C89_constant [FloorRing K] [IsStrictOrderedRing K] (w w' : World K) (args args' : RunArgs K) (source source' : String) (df : Frame K)
    (extra : List (Row K)) (res res' : RunResult K) (h : runSingle w args source df = .ok res) (h' : runSingle w' args' source' (extended df extra) = .ok res')
    (hstart : args'.start = args.start) (hout : args.findOutliers = false) (hout' : args'.findOutliers = false)
    (hmin : ∀ i, FindsMinimum (w.env source i)) (hmin' : ∀ i, FindsMinimum (w'.env source' i))
    (hcand : ∀ df' cand, candidates w.ch args.models df' (runFreq df) = .ok cand → ∀ m' ∈ cand.2, m'.name = "constant" → m' = modelConstant)
    (hcand' : ∀ df' cand, candidates w'.ch args'.models df' (runFreq (extended df extra)) = .ok cand → ∀ m' ∈ cand.2, m'.name = "constant" → m' = modelConstant)
    (hdate : df.hasDate = true) (t0 : Timestamp) (hdays : CountsDays (extended df extra) t0) (hnd : ((extended df extra).rows.map Row.x).Nodup)
    (hcomes : ComesTrue res "constant" extra)
    (r r' : DRow K) (hr : r ∈ res.data) (hr' : r' ∈ res'.data) (hact : r.isActuals = false) (hact' : r'.isActuals = false)
    (hname : r.model = "constant") (hname' : r'.model = "constant") (hsame : r'.date = r.date) : r'.y = r.y :=
  confirmed_run w w' args args' source source' df extra res res' h h' hstart hout hout' hmin hmin' modelConstant constant_unpinned (fun _ => none) levelValue
    constant_inParameters (fun i => by constructor <;> simp [modelConstant, mkModel]) (fun i => by constructor <;> simp [modelConstant, mkModel]) hcand hcand' hdate t0 hdays hnd
    hcomes r r' hr hr' hact hact' hname hname' hsame


/-- **C89, weekly.** The same for the linear trend with weekly seasonality. -/
theorem C89_weekly [FloorRing K] [IsStrictOrderedRing K] (w w' : World K) (args args' : RunArgs K) (source source' : String) (df : Frame K)
    (extra : List (Row K)) (res res' : RunResult K) (h : runSingle w args source df = .ok res) (h' : runSingle w' args' source' (extended df extra) = .ok res')
    (hstart : args'.start = args.start) (hout : args.findOutliers = false) (hout' : args'.findOutliers = false)
    (hmin : ∀ i, FindsMinimum (w.env source i)) (hmin' : ∀ i, FindsMinimum (w'.env source' i))
    (hcache : ∀ i f, (w.env source i).globalCache "a_weekday" = some f → f = cacheWeekday)
    (hcache' : ∀ i f, (w'.env source' i).globalCache "a_weekday" = some f → f = cacheWeekday)
    (hcand : ∀ df' cand, candidates w.ch args.models df' (runFreq df) = .ok cand → ∀ m' ∈ cand.2, m'.name = "(linear+season_wday)" → m' = modelLinear.add modelSeasonWday)
    (hcand' : ∀ df' cand, candidates w'.ch args'.models df' (runFreq (extended df extra)) = .ok cand → ∀ m' ∈ cand.2, m'.name = "(linear+season_wday)" → m' = modelLinear.add modelSeasonWday)
    (hdate : df.hasDate = true) (t0 : Timestamp) (hdays : CountsDays (extended df extra) t0) (hnd : ((extended df extra).rows.map Row.x).Nodup)
    (hcomes : ComesTrue res "(linear+season_wday)" extra)
    (r r' : DRow K) (hr : r ∈ res.data) (hr' : r' ∈ res'.data) (hact : r.isActuals = false) (hact' : r'.isActuals = false)
    (hname : r.model = "(linear+season_wday)") (hname' : r'.model = "(linear+season_wday)") (hsame : r'.date = r.date) : r'.y = r.y :=
  confirmed_run w w' args args' source source' df extra res res' h h' hstart hout hout' hmin hmin' weeklyModel weekly_unpinned weeklyReg weeklyValue
    weekly_inParameters (fun i => weekly_registered _ (hcache i)) (fun i => weekly_registered _ (hcache' i)) (by rw [weekly_name]; exact hcand)
    (by rw [weekly_name]; exact hcand') hdate t0 hdays hnd (by rw [weekly_name]; exact hcomes) r r' hr hr' hact hact' (by rw [weekly_name]; exact hname)
    (by rw [weekly_name]; exact hname') hsame


/-! ### Concrete runs -/

/-- The forecasts `288/31` and `343/31` of the example for C88 come true, the first with weight five, with a missing value in between. -/
def scatterExtra : List (Row ℚ) := [⟨9 * DAY, 5, some (288 / 31), some 5⟩, ⟨10 * DAY, 6, none, some 1⟩, ⟨11 * DAY, 7, some (398 / 31), some 1⟩]

/-- Least squares parameters are `55/31` and `13/31` again: the sums of the errors are zero. -/
example : ((runSingle { demoWorld with env := fun _ _ => givenEnv [55 / 31, 13 / 31] } (demoArgs [modelLinear] (some [])) "s"
      (extended scatterFrame scatterExtra)).toOption.map fun r => ((r.data.filter fun q => !q.isActuals && decide (8 * DAY < q.date)).map (fun q => (q.date / DAY, q.y)),
      errorSum r (dayLine (4 * DAY) (55 / 31) (13 / 31)) (fun _ => 1), errorSum r (dayLine (4 * DAY) (55 / 31) (13 / 31)) (dayLine (4 * DAY) 1 0))) =
    some ([(9, some (288 / 31)), (10, some (343 / 31)), (11, some (398 / 31)), (12, some (453 / 31)), (13, some (508 / 31)), (14, some (563 / 31))], 0, 0) := by
  decide +kernel

example : CountsDays (extended scatterFrame scatterExtra) (4 * DAY) ∧ ((extended scatterFrame scatterExtra).rows.map Row.x).Nodup ∧
    (∀ r ∈ scatterRun [55 / 31, 13 / 31] modelLinear, ComesTrue r "linear" scatterExtra) := by
  refine ⟨by unfold CountsDays; decide +kernel, by decide +kernel, ?_⟩
  unfold ComesTrue
  decide +kernel

end Anticipy
