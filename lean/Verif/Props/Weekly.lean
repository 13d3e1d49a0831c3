import Verif.Props.Recovery
import Verif.Props.Trends
import Verif.Lemmas.Time
import Mathlib.Data.Finset.Card
import Mathlib.Data.Finset.Dedup
import Mathlib.Order.Interval.Finset.Defs
import Mathlib.Data.Int.Interval
import Mathlib.Algebra.Order.Ring.Rat
import Mathlib.Tactic.Ring

/-
C70: a trend with a weekly pattern is continued.
-/
namespace Anticipy
open Spec
variable {K : Type} [Field K] [LinearOrder K]

/-- Whoever gets a value has asked for one. -/
theorem series_nonempty (sx : List (Int × Int)) (r : Res (Arr K)) (l : List (Int × Option K))
    (h : (r.bind fun a => seriesOf (sx.map Prod.fst) a) = .ok l) (p : Int × Option K) (hp : p ∈ l) : sx.map Prod.snd ≠ [] := by
  intro hc
  have hsx : sx = [] := by simpa using hc
  subst hsx
  cases r with
  | error e => cases h
  | ok a =>
    cases a with
    | scalar v => cases h; cases hp
    | vec v =>
      simp only [Except.bind, seriesOf, List.map_nil, List.zip_nil_left] at h
      split_ifs at h
      cases h
      cases hp

/-- A successful fit has samples. -/
theorem fit_nonempty (env : Env K) (m : ForecastModel K) (df : Frame K) (actuals : Option (Frame K)) (c : Bool) (f : FitResult K)
    (h : fitModel env m df actuals c = .ok f) (hf : f.isFit = true) : (usableRows df).map Row.x ≠ [] := by
  have hst := (C30_status env m df _ _ f h).2.2
  have hlong := (hst.1.1 (.inl (hst.2.2.1 hf))).1
  intro hc
  have : (usableRows df).length = 0 := by simpa using congrArg List.length hc
  omega

/-- A forecast row of a candidate whose value is a function of parameters, x and date: it is the value at its date for the parameters fitted to this
candidate. -/
theorem row_value_stage [FloorRing K] [IsStrictOrderedRing K] (w : World K) (args : RunArgs K) (source : String) (df : Frame K)
    (d : List (DRow K) × List (MRow K)) (st : RunStages w args source df d) (m : ForecastModel K)
    (hcand : ∀ m' ∈ st.cand.2, m'.name = m.name → m' = m)
    (val : List K → Int → Timestamp → K)
    (hval : ∀ (ctx : Ctx K) (xs : List Int) (ds : List Timestamp) p, ctx.ax = scaleX m xs → ctx.adate = some ds → xs.length = ds.length →
      p.length = m.nParams → (∀ k, ctx.cache k = none) → xs ≠ [] → m.fModel ctx (some p) false = .ok (vecOf (List.zipWith (val p) xs ds)))
    (hlenp : ∀ (i : Nat) (used : Frame K) (act : Option (Frame K)) (f : FitResult K), fitModel (w.env source i) m used act args.useCache = .ok f → f.isFit = true → f.params.length = m.nParams)
    (hdate : df.hasDate = true) (t0 : Timestamp) (hdays : CountsDays df t0)
    (r : DRow K) (hr1 : r ∈ d.1) (hact : r.isActuals = false) (hm : r.model = m.name) :
    ∃ i f, st.cand.2[i]? = some m ∧
      fitModel (w.env source i) m (usedRows (defaultWeights st.df2).1) (some st.actuals) args.useCache = .ok f ∧ f.isFit = true ∧
      r.y = some (val f.params ((r.date - t0) / (24 * 60 * 60 * 1000000000)) r.date) := by
  have hd1 : d.1 = _ := congrArg Prod.fst st.hd
  rw [hd1] at hr1
  obtain ⟨q, hq, rfl⟩ := List.mem_map.1 hr1
  rcases List.mem_append.1 hq with hq | hq
  · unfold actualsClean at hq
    obtain ⟨q', -, rfl⟩ := List.mem_map.1 hq
    cases hact
  · obtain ⟨k, m', f, rows, e1, e2, e3, e4⟩ := (fitLoop_spec _ _ _ _ _ st.hFits).2.2 q hq
    obtain ⟨-, -, -, hname, -, hfit, -⟩ := forecastRows_mem _ _ _ _ e3 q e4
    have hmm : m' = m := hcand m' (List.mem_of_getElem? e1) (by rw [← hname]; exact hm)
    subst hmm
    obtain ⟨u1, u2, u3, u4, u5⟩ := used_rows args.findOutliers args.start df st.df2 st.hOut
    rw [Nat.zero_add] at e2
    simp only [mkSetup] at e2 e3
    unfold forecastRows at e3
    rw [if_pos hfit] at e3
    dsimp only at e3
    have hdd : ∀ q ∈ (usedRows (defaultWeights st.df2).1).rows, q.date = t0 + q.x * (24 * 60 * 60 * 1000000000) := by
      intro q hq
      obtain ⟨q', h1, h2, h3, -⟩ := u5 q hq
      rw [h2, h3]
      exact hdays q' (List.mem_filter.1 h1).1
    cases h1 : listMin (axisOf (usedRows (defaultWeights st.df2).1)) with
    | none => rw [h1] at e3; cases e3
    | some start =>
      cases h2 : listMin ((usedRows (defaultWeights st.df2).1).rows.map Row.x) with
      | none => rw [h1, h2] at e3; cases e3
      | some x0 =>
        rw [h1, h2] at e3
        have hstart : start = t0 + x0 * (24 * 60 * 60 * 1000000000) := by
          unfold axisOf at h1
          rw [u1, hdate, if_pos rfl] at h1
          obtain ⟨m1, l1⟩ := (listMin_some _ _).1 h1
          obtain ⟨m2, l2⟩ := (listMin_some _ _).1 h2
          obtain ⟨q1, n1, rfl⟩ := List.mem_map.1 m1
          obtain ⟨q2, n2, rfl⟩ := List.mem_map.1 m2
          have a1 := l1 _ (List.mem_map.2 ⟨q2, n2, rfl⟩)
          have a2 := l2 _ (List.mem_map.2 ⟨q1, n1, rfl⟩)
          have b1 := hdd q1 n1
          have b2 := hdd q2 n2
          omega
        dsimp only at e3
        simp only [bind, Except.bind] at e3
        cases h3 : extrapolate m' f.params (usedRows (defaultWeights st.df2).1).hasDate start ((listMax (axisOf (defaultWeights st.df2).1)).getD 0)
            (runFreq df) args.years x0 st.actuals with
        | error e => rw [h3] at e3; cases e3
        | ok l =>
          rw [h3] at e3
          have e3 := Except.ok.inj e3
          rw [← e3] at e4
          unfold fcastClean at e4
          obtain ⟨p, hp, rfl⟩ := List.mem_map.1 e4
          have hp := (List.mem_filter.1 hp).1
          unfold extrapolate at h3
          rw [u1, hdate] at h3
          simp only [if_true, bind, Except.bind] at h3
          cases h4 : sxExtrapolateDate start ((listMax (axisOf (defaultWeights st.df2).1)).getD 0) (runFreq df) args.years x0 with
          | error e => rw [h4] at h3; cases h3
          | ok sx =>
            rw [h4] at h3
            obtain ⟨dates, hsx⟩ := sxExtrapolateDate_x _ _ _ _ _ _ h4
            subst hsx
            dsimp only at h3
            have hne := series_nonempty _ _ _ h3 _ hp
            rw [hval _ _ _ f.params rfl rfl (by simp) (hlenp k _ _ f e2 hfit) (fun _ => rfl) hne] at h3
            simp only [seriesOf, vecOf, List.map_map, List.length_map, List.zipWith_map, List.zipWith_self, if_true] at h3
            have h3 := Except.ok.inj h3
            rw [← h3, List.zip_map', List.mem_map] at hp
            obtain ⟨t, -, rfl⟩ := hp
            refine ⟨k, f, e1, e2, hfit, ?_⟩
            simp only [flagData, Function.comp_def, DAY, HOUR]
            rw [hstart]
            congr 2
            omega

/-- A forecast row of a candidate whose value is a function of parameters, x and date: it is the value at its date for the fitted parameters. -/
theorem row_value [FloorRing K] [IsStrictOrderedRing K] (w : World K) (args : RunArgs K) (source : String) (df : Frame K) (res : RunResult K)
    (h : runSingle w args source df = .ok res) (m : ForecastModel K)
    (hcand : ∀ df' cand, candidates w.ch args.models df' (runFreq df) = .ok cand → ∀ m' ∈ cand.2, m'.name = m.name → m' = m)
    (val : List K → Int → Timestamp → K)
    (hval : ∀ (ctx : Ctx K) (xs : List Int) (ds : List Timestamp) p, ctx.ax = scaleX m xs → ctx.adate = some ds → xs.length = ds.length →
      p.length = m.nParams → (∀ k, ctx.cache k = none) → xs ≠ [] → m.fModel ctx (some p) false = .ok (vecOf (List.zipWith (val p) xs ds)))
    (hlenp : ∀ (i : Nat) (used : Frame K) (act : Option (Frame K)) (f : FitResult K), fitModel (w.env source i) m used act args.useCache = .ok f → f.isFit = true → f.params.length = m.nParams)
    (hdate : df.hasDate = true) (t0 : Timestamp) (hdays : CountsDays df t0)
    (r : DRow K) (hr : r ∈ res.data) (hact : r.isActuals = false) (hm : r.model = m.name) :
    ∃ df2 i f act, applyOutliers args.findOutliers (filterStart args.start df) = .ok df2 ∧
      fitModel (w.env source i) m (usedRows (defaultWeights df2).1) (some act) args.useCache = .ok f ∧ f.isFit = true ∧
      r.y = some (val f.params ((r.date - t0) / (24 * 60 * 60 * 1000000000)) r.date) := by
  obtain ⟨d, hd, hdata, -, -⟩ := runSingle_inv w args source df res h
  obtain ⟨st⟩ := runFits_stages w args source df d hd
  have hr1 : r ∈ d.1 := by
    rw [hdata] at hr
    unfold selectFits at hr
    split_ifs at hr
    · exact hr
    · exact (List.mem_filter.1 hr).1
  obtain ⟨i, f, -, e2, hfit, hy⟩ := row_value_stage w args source df d st m (hcand _ _ st.hCand) val hval hlenp hdate t0 hdays r hr1 hact hm
  exact ⟨st.df2, i, f, st.actuals, st.hOut, e2, hfit, hy⟩

/-- A candidate that describes the samples exactly, and whose values are determined by the samples used, is continued exactly. -/
theorem continue_model [FloorRing K] [IsStrictOrderedRing K] (w : World K) (args : RunArgs K) (source : String) (df : Frame K) (res : RunResult K)
    (h : runSingle w args source df = .ok res) (hmin : ∀ i, FindsMinimum (w.env source i)) (m : ForecastModel K) (hu : Unpinned m)
    (hn : m.nParams ≠ 0)
    (hcand : ∀ df' cand, candidates w.ch args.models df' (runFreq df) = .ok cand → ∀ m' ∈ cand.2, m'.name = m.name → m' = m)
    (reg : Registry K) (hreg : ∀ i, Registered (w.env source i).globalCache reg m) (val : List K → Int → Timestamp → K)
    (hval : ∀ (ctx : Ctx K) (xs : List Int) (ds : List Timestamp) p, ctx.ax = scaleX m xs → ctx.adate = some ds → xs.length = ds.length →
      p.length = m.nParams → CacheCorrect reg ctx.ax ctx.adate ctx.cache → xs ≠ [] →
      m.fModel ctx (some p) false = .ok (vecOf (List.zipWith (val p) xs ds)))
    (hbd : ∀ args b, m.fBounds args = .ok b → b.lo.length = m.nParams) (p0 : List K) (hp0 : ∀ args b, m.fBounds args = .ok b → Admissible p0 b)
    (hdate : df.hasDate = true) (t0 : Timestamp) (hdays : CountsDays df t0) (hnd : (df.rows.map Row.x).Nodup)
    (hexact : ∀ r ∈ kept args.start df, (∃ v, givenWeight df r = some v ∧ 0 < v) → ∀ v, r.y = some v → v = val p0 r.x r.date)
    (hid : ∀ (used : Frame K) p, (∃ df2, applyOutliers args.findOutliers (filterStart args.start df) = .ok df2 ∧ used = usedRows (defaultWeights df2).1) →
      p.length = m.nParams → used.hasDate = true → (used.rows.map Row.x).Nodup →
      m.nParams + 2 ≤ (usableRows used).length → verdict m used = .ok true →
      (∀ r ∈ usableRows used, val p r.x r.date = val p0 r.x r.date) → ∀ x t, val p x t = val p0 x t)
    (r : DRow K) (hr : r ∈ res.data) (hact : r.isActuals = false) (hm : r.model = m.name) :
    r.y = some (val p0 ((r.date - t0) / (24 * 60 * 60 * 1000000000)) r.date) := by
  have hlen : ∀ args b p, m.fBounds args = .ok b → Admissible p b → p.length = m.nParams := by
    intro args b p hb hp
    rw [← hbd args b hb]
    exact hp.2.1.symm
  obtain ⟨df2, i, f, act, hOut, e2, hfit, hy⟩ := row_value w args source df res h m hcand val
    (fun ctx xs ds p h1 h2 h3 h4 h5 h6 => hval ctx xs ds p h1 h2 h3 h4 (by intro k v hk; rw [h5] at hk; cases hk) h6)
    (fun i used act f e hf => by
      obtain ⟨-, ctx, guess, b, r, -, -, -, h4, h5, h6, h7, -⟩ := fitModel_solver _ m _ _ _ f hu hn e hf
      rw [h7]
      exact hlen _ _ _ h4 (hmin i _ _ _ _ h5 h6).1) hdate t0 hdays r hr hact hm
  obtain ⟨u1, u2, u3, u4, u5⟩ := used_rows args.findOutliers args.start df df2 hOut
  rw [hy]
  generalize hused : usedRows (defaultWeights df2).1 = used at e2 u1 u2 u5
  have hsub : (used.rows.map Row.x).Sublist (df.rows.map Row.x) := by
    have h1 : (used.rows.map Row.x).Sublist ((defaultWeights df2).1.rows.map Row.x) := by
      rw [← hused]
      exact List.Sublist.map _ List.filter_sublist
    rw [u4] at h1
    exact h1.trans (List.Sublist.map _ List.filter_sublist)
  have hus : ∀ q ∈ usableRows used, q ∈ used.rows := fun q hq => (List.mem_filter.1 hq).1
  have hst := (C30_status _ m used _ _ f e2).2.2
  have hlong := hst.1.1 (.inl (hst.2.2.1 hfit))
  have hexu : ∀ q ∈ usableRows used, q.y = some (val p0 q.x q.date) := by
    intro q hq
    obtain ⟨q', h1, h2, h3, h4, h5⟩ := u5 q (hus q hq)
    have hu : Usable used.hasWeight q := by simpa using (List.mem_filter.1 hq).2
    obtain ⟨v, hv⟩ := hu.1
    rw [hv, h3, h2, hexact q' h1 h5 v (by rw [← h4]; exact hv)]
  have hudate : used.hasDate = true := by rw [u1, hdate]
  obtain ⟨⟨ar, bd, hb, hadm⟩, hrep⟩ := C69_reproduced _ (hmin _) m used _ _ f hu hn e2 hfit (fun p r => val p r.x r.date) reg (hreg _) (by
    intro ctx b p hc h1 h2 _ h4 h5
    rw [hudate, if_pos rfl] at h2
    rw [hval ctx _ _ p h1 h2 (by simp) (hlen _ _ _ h4 h5) hc (fit_nonempty _ m used _ _ f e2 hfit)]
    congr 2
    rw [List.zipWith_map, List.zipWith_self]) p0 hp0 hexu
  rw [hid used f.params ⟨df2, hOut, hused.symm⟩ (hlen _ _ _ hb hadm) hudate (hsub.nodup hnd) hlong.1 hlong.2 (by
    intro q hq
    have h1 := hrep q hq
    rw [hexu q hq, Option.some.injEq] at h1
    exact h1.symm)]

/-! ### The linear trend with weekly seasonality -/

/-- `linear + season_wday`: the model built for daily data. -/
def weeklyModel : ForecastModel K := modelLinear.add modelSeasonWday

/-- Its value: line plus the parameter of the weekday (none for Mondays). -/
def weeklyValue (p : List K) (x : Int) (t : Timestamp) : K :=
  p.getD 0 0 * (x : K) + p.getD 1 0 + ((0 : K) :: p.drop 2).getD (weekday t).toNat 0

def weeklyReg : Registry K := fun k => if k = "a_weekday" then some cacheWeekday else none

omit [LinearOrder K] in
theorem weekly_params (p : List K) (h : p.length = 8) : ∃ a b s1 s2 s3 s4 s5 s6, p = [a, b, s1, s2, s3, s4, s5, s6] := by
  match p, h with
  | [a, b, s1, s2, s3, s4, s5, s6], _ => exact ⟨a, b, s1, s2, s3, s4, s5, s6, rfl⟩

theorem weekly_fModel (ctx : Ctx K) (xs : List Int) (ds : List Timestamp) (p : List K) (hx : ctx.ax = xs.map fun x : Int => (x : K))
    (hd : ctx.adate = some ds) (hl : xs.length = ds.length) (hp : p.length = 8) (hc : CacheCorrect weeklyReg ctx.ax ctx.adate ctx.cache) :
    (weeklyModel : ForecastModel K).fModel ctx (some p) false = .ok (vecOf (List.zipWith (weeklyValue p) xs ds)) := by
  obtain ⟨a, b, s1, s2, s3, s4, s5, s6, rfl⟩ := weekly_params p hp
  have hcache : (match ctx.cache "a_weekday" with
      | some c => pure c
      | none => cacheWeekday ctx.ax ctx.adate : Res (CacheVal K)) = .ok (.ints (ds.map weekday)) := by
    cases hk : ctx.cache "a_weekday" with
    | none => simp only [cacheWeekday, hd]
    | some v =>
      obtain ⟨f, h1, h2⟩ := hc _ _ hk
      simp only [weeklyReg, if_true, Option.some.injEq] at h1
      subst h1
      simp only [cacheWeekday, hd] at h2
      rw [← Except.ok.inj h2]
      rfl
  have hg : gather ((0 : K) :: [s1, s2, s3, s4, s5, s6]) (ds.map weekday) =
      .ok ((ds.map weekday).map fun i => ((0 : K) :: [s1, s2, s3, s4, s5, s6])[i.toNat]?) := by
    apply gather_eq
    intro i hi
    obtain ⟨t, -, rfl⟩ := List.mem_map.1 hi
    exact weekday_range t
  have hs : (modelSeasonWday : ForecastModel K).fModel ctx (some [s1, s2, s3, s4, s5, s6]) false =
      .ok (.vec ((ds.map weekday).map fun i => ((0 : K) :: [s1, s2, s3, s4, s5, s6])[i.toNat]?)) := by
    simp only [modelSeasonWday, mkModel, fModelSeasonWday, fModelIndexed, bind, Except.bind, Bool.false_eq_true, if_false]
    have hcache' := hcache
    cases hk : ctx.cache "a_weekday" with
    | none =>
      rw [hk] at hcache'
      dsimp only at hcache' ⊢
      rw [hcache']
      dsimp only
      rw [hg]
    | some v =>
      rw [hk] at hcache'
      have hcache' := Except.ok.inj hcache'
      subst hcache'
      dsimp only [pure, Except.pure]
      rw [hg]
  have hlin : (modelLinear : ForecastModel K).fModel ctx (some [a, b]) false = .ok (vecOf (xs.map fun x : Int => a * (x : K) + b)) := by
    simp only [modelLinear, mkModel, fModelLinear, unpack2, bind, Except.bind, hx, List.map_map]
    rfl
  have : (weeklyModel : ForecastModel K).fModel = fAdd2 modelLinear modelSeasonWday := by
    unfold weeklyModel ForecastModel.add compose
    rw [if_neg (by simp [modelLinear, mkModel]), if_neg (by simp [modelSeasonWday, mkModel])]
    rfl
  rw [this]
  unfold fAdd2
  have hnp : (modelLinear : ForecastModel K).nParams = 2 := rfl
  simp only [splitParams, hnp, bind, Except.bind, List.take_succ_cons, List.take_zero, List.drop_succ_cons, List.drop_zero]
  rw [hlin]
  dsimp only
  rw [hs]
  dsimp only
  simp only [vecOf, Arr.bin, List.length_map, hl, if_true]
  congr 2
  rw [List.map_map, List.map_map, List.zipWith_map, List.map_zipWith]
  congr 1
  funext x t
  have h7 := weekday_range t
  have : (weekday t).toNat < 7 := by omega
  obtain ⟨v, hv⟩ : ∃ v, ((0 : K) :: [s1, s2, s3, s4, s5, s6])[(weekday t).toNat]? = some v := ⟨_, List.getElem?_eq_getElem (by simpa using this)⟩
  have hw : weeklyValue [a, b, s1, s2, s3, s4, s5, s6] x t = a * (x : K) + b + (((0 : K) :: [s1, s2, s3, s4, s5, s6])[(weekday t).toNat]?).getD 0 := rfl
  simp only [Function.comp_def]
  rw [hw, hv]
  rfl

theorem weekly_bounds (args : InitArgs K) (b : Bounds K) (h : (weeklyModel : ForecastModel K).fBounds args = .ok b) :
    b = ⟨List.replicate 8 .ninf, List.replicate 8 .pinf, true⟩ := by
  have : (weeklyModel : ForecastModel K).fBounds args = .ok ⟨List.replicate 8 .ninf, List.replicate 8 .pinf, true⟩ := by
    unfold weeklyModel ForecastModel.add compose
    rw [if_neg (by simp [modelLinear, mkModel]), if_neg (by simp [modelSeasonWday, mkModel])]
    rfl
  rw [this] at h
  exact (Except.ok.inj h).symm

theorem weekly_validators : (weeklyModel : ForecastModel K).validators = [validateDefault, validateSeasonWday] := by
  unfold weeklyModel ForecastModel.add compose
  rw [if_neg (by simp [modelLinear, mkModel]), if_neg (by simp [modelSeasonWday, mkModel])]
  rfl

theorem weekly_name : (weeklyModel : ForecastModel K).name = "(linear+season_wday)" := by
  unfold weeklyModel ForecastModel.add compose
  rw [if_neg (by simp [modelLinear, mkModel]), if_neg (by simp [modelSeasonWday, mkModel])]
  rfl

theorem weekly_nParams : (weeklyModel : ForecastModel K).nParams = 8 := by
  unfold weeklyModel ForecastModel.add compose
  rw [if_neg (by simp [modelLinear, mkModel]), if_neg (by simp [modelSeasonWday, mkModel])]
  rfl

/-- Seven different weekdays are all weekdays. -/
theorem seven_weekdays (l : List Int) (hr : ∀ i ∈ l, 0 ≤ i ∧ i < 7) (h : (dedupBy id l).length = 7) (i : Int) (hi : 0 ≤ i ∧ i < 7) : i ∈ l := by
  have hn : (dedupBy id l).Nodup := List.nodup_iff_pairwise_ne.2 (by simpa using dedupBy_keys_nodup id l)
  have hsub : (dedupBy id l).toFinset ⊆ Finset.Ico (0 : Int) 7 := by
    intro j hj
    rw [Finset.mem_Ico]
    exact hr j (mem_dedupBy _ _ _ (List.mem_toFinset.1 hj))
  have heq := Finset.eq_of_subset_of_card_le hsub (by rw [List.toFinset_card_of_nodup hn, h]; simp)
  exact mem_dedupBy id l i (List.mem_toFinset.1 (by rw [heq, Finset.mem_Ico]; exact hi))

/-- More than seven samples: two of them on the same weekday. -/
theorem weekday_twice (l : List (Row K)) (h : 7 < l.length) : ∃ i j, ∃ (hi : i < l.length) (hj : j < l.length), i < j ∧
    weekday (l[i]).date = weekday (l[j]).date := by
  by_contra hcon
  have hn : (l.map fun r => weekday r.date).Nodup := by
    rw [List.nodup_iff_pairwise_ne, List.pairwise_iff_getElem]
    intro i j hi hj hij he
    simp only [List.length_map] at hi hj
    exact hcon ⟨i, j, hi, hj, hij, by simpa using he⟩
  have hsub : (l.map fun r => weekday r.date).toFinset ⊆ Finset.Ico (0 : Int) 7 := by
    intro j hj
    obtain ⟨r, -, rfl⟩ := List.mem_map.1 (List.mem_toFinset.1 hj)
    rw [Finset.mem_Ico]
    exact weekday_range _
  have := Finset.card_le_card hsub
  rw [List.toFinset_card_of_nodup hn] at this
  simp at this
  omega

/-- The samples of a fit determine the model: all weekdays occur, one of them twice. -/
theorem weekly_determined [IsStrictOrderedRing K] (used : Frame K) (p p0 : List K) (hp : p.length = 8) (hp0 : p0.length = 8) (hd : used.hasDate = true)
    (hnd : (used.rows.map Row.x).Nodup) (hlong : 10 ≤ (usableRows used).length) (hv : verdict (weeklyModel : ForecastModel K) used = .ok true)
    (he : ∀ r ∈ usableRows used, weeklyValue p r.x r.date = weeklyValue p0 r.x r.date) (x : Int) (t : Timestamp) :
    weeklyValue p x t = weeklyValue p0 x t := by
  unfold verdict ForecastModel.validateInput at hv
  rw [runValidators_true, weekly_validators] at hv
  obtain ⟨o, ho⟩ := hv validateSeasonWday (by simp)
  rw [hd, if_pos rfl] at ho
  simp only [validateSeasonWday, bind, Except.bind, pyAssert] at ho
  have h7 : (dedupBy id (((usableRows used).map Row.date).map weekday)).length = 7 := by
    by_contra hcon
    rw [if_neg (by simpa using hcon)] at ho
    cases ho
  have hcover := seven_weekdays _ (by
    intro i hi
    obtain ⟨t, -, rfl⟩ := List.mem_map.1 hi
    exact weekday_range t) h7
  obtain ⟨i, j, hi, hj, hij, hw⟩ := weekday_twice (usableRows used) (by omega)
  have hxne : ((usableRows used)[i]).x ≠ ((usableRows used)[j]).x := by
    have hnd' : ((usableRows used).map Row.x).Nodup := hnd.sublist (List.Sublist.map _ List.filter_sublist)
    rw [List.nodup_iff_pairwise_ne, List.pairwise_iff_getElem] at hnd'
    have := hnd' i j (by simpa using hi) (by simpa using hj) hij
    simpa using this
  have e1 := he _ (List.getElem_mem hi)
  have e2 := he _ (List.getElem_mem hj)
  unfold weeklyValue at e1 e2
  rw [hw] at e1
  have hne : (((usableRows used)[i]).x : K) ≠ (((usableRows used)[j]).x : K) := by exact_mod_cast hxne
  have ha : p.getD 0 0 = p0.getD 0 0 := by
    have h1 : (p.getD 0 0 - p0.getD 0 0) * ((((usableRows used)[i]).x : K) - (((usableRows used)[j]).x : K)) = 0 := by linear_combination e1 - e2
    rcases mul_eq_zero.1 h1 with e | e
    · exact sub_eq_zero.1 e
    · exact absurd (sub_eq_zero.1 e) hne
  have hwd := hcover (weekday t) (weekday_range t)
  obtain ⟨t', ht', hwt⟩ := List.mem_map.1 hwd
  obtain ⟨r, hr, rfl⟩ := List.mem_map.1 ht'
  have e3 := he r hr
  unfold weeklyValue at e3 ⊢
  rw [hwt, ha] at e3
  rw [ha]
  linear_combination e3

/-- **C70.** Daily dated series: if the samples from the starting date on (with a value and positive weight) follow a line plus a fixed contribution of
each day of the week, then every forecast row of the model `linear + season_wday` follows the same line and pattern. No assumption on how many samples
there are or which weekdays they cover: a fit exists only if they suffice. With or without cached features. The solver must find the minimum. -/
theorem C70_weekly [FloorRing K] [IsStrictOrderedRing K] (wd : Int → Int) (hwd : IsWeek wd) (w : World K) (args : RunArgs K) (source : String)
    (df : Frame K) (res : RunResult K) (h : runSingle w args source df = .ok res) (hmin : ∀ i, FindsMinimum (w.env source i))
    (hcache : ∀ i f, (w.env source i).globalCache "a_weekday" = some f → f = cacheWeekday)
    (hcand : ∀ df' cand, candidates w.ch args.models df' (runFreq df) = .ok cand → ∀ m ∈ cand.2, m.name = "(linear+season_wday)" →
      m = modelLinear.add modelSeasonWday)
    (hdate : df.hasDate = true) (t0 : Timestamp) (hdays : CountsDays df t0) (hnd : (df.rows.map Row.x).Nodup) (a b : K) (s : Int → K)
    (hpat : OnWeeklyPattern wd { df with rows := kept args.start df } a b s) (r : DRow K) (hr : r ∈ res.data) (hact : r.isActuals = false)
    (hm : r.model = "(linear+season_wday)") :
    r.y = some (a * (((r.date - t0) / (24 * 60 * 60 * 1000000000) : Int) : K) + b + s (wd (r.date / (24 * 60 * 60 * 1000000000)))) := by
  rw [isWeek_unique wd hwd] at *
  have hpv : ∀ x t, weeklyValue [a, b + s 0, s 1 - s 0, s 2 - s 0, s 3 - s 0, s 4 - s 0, s 5 - s 0, s 6 - s 0] x t =
      a * (x : K) + b + s (weekdayOfDay (t / (24 * 60 * 60 * 1000000000))) := by
    intro x t
    have h7 := weekday_range t
    have hw : weekdayOfDay (t / (24 * 60 * 60 * 1000000000)) = weekday t := rfl
    rw [hw]
    have hv : ∀ k : Int, (0 ≤ k ∧ k < 7) → ((0 : K) :: [s 1 - s 0, s 2 - s 0, s 3 - s 0, s 4 - s 0, s 5 - s 0, s 6 - s 0]).getD k.toNat 0 = s k - s 0 := by
      intro k hk
      have : k = 0 ∨ k = 1 ∨ k = 2 ∨ k = 3 ∨ k = 4 ∨ k = 5 ∨ k = 6 := by omega
      rcases this with rfl | rfl | rfl | rfl | rfl | rfl | rfl
      · exact (sub_self _).symm
      all_goals rfl
    have hq : weeklyValue [a, b + s 0, s 1 - s 0, s 2 - s 0, s 3 - s 0, s 4 - s 0, s 5 - s 0, s 6 - s 0] x t = a * (x : K) + (b + s 0) +
      ((0 : K) :: [s 1 - s 0, s 2 - s 0, s 3 - s 0, s 4 - s 0, s 5 - s 0, s 6 - s 0]).getD (weekday t).toNat 0 := rfl
    rw [hq, hv _ (weekday_range t)]
    ring
  have hun : Unpinned (weeklyModel : ForecastModel K) := by
    intro ar bd hb p hp v
    rw [weekly_bounds ar bd hb] at hp
    have : p = ((Ext.ninf : Ext K), (Ext.pinf : Ext K)) := by
      simpa using hp
    simp [this]
  have := continue_model w args source df res h hmin weeklyModel hun (by rw [weekly_nParams]; simp)
    (by rw [weekly_name]; exact hcand) weeklyReg
    (by
      intro i
      refine registered_compose _ _ _ _ _ ⟨by simp [modelLinear, mkModel], by simp [modelLinear, mkModel]⟩ ⟨?_, by simp [modelSeasonWday, mkModel]⟩
      intro k hk f hf
      have : k = "a_weekday" := by simpa [modelSeasonWday, mkModel] using hk
      subst this
      rw [hcache i f hf]
      rfl)
    weeklyValue
    (by
      intro ctx xs ds p h1 h2 h3 h4 h5 _
      rw [weekly_nParams] at h4
      refine weekly_fModel ctx xs ds p ?_ h2 h3 h4 h5
      rw [h1]
      unfold scaleX
      rw [if_neg]
      rw [weekly_name]
      simp)
    (by intro ar bd hb; rw [weekly_bounds ar bd hb, weekly_nParams]; rfl)
    [a, b + s 0, s 1 - s 0, s 2 - s 0, s 3 - s 0, s 4 - s 0, s 5 - s 0, s 6 - s 0]
    (by
      intro ar bd hb
      rw [weekly_bounds ar bd hb]
      refine ⟨by simp, by simp, by simp, ?_⟩
      intro i h1 h2 h3
      simp only [List.getElem_replicate, List.getElem_map]
      exact ⟨rfl, rfl⟩)
    hdate t0 hdays hnd
    (by
      intro r hr hw v hv
      rw [hpv]
      exact hpat r hr hw v hv)
    (by
      intro used p _ hp hd hn hl hv he
      rw [weekly_nParams] at hp hl
      exact weekly_determined used p _ hp rfl hd hn hl hv he)
    r hr hact (by rw [hm, weekly_name])
  rw [this, hpv]

/-! ### A concrete run -/

/-- Sixteen days from a Monday on: half a unit more each day, three more on Saturdays, one less on Wednesdays; the Wednesday of the second week is missing. -/
def weeklyFrame : Frame ℚ := ⟨true, false, ((List.range 16).map fun i : Nat =>
  (⟨(4 + (i : Int)) * DAY, (i : Int), if i = 9 then none else some ((i : ℚ) / 2 + 10 + (if i % 7 = 5 then 3 else 0) - (if i % 7 = 2 then 1 else 0)), none⟩ : Row ℚ))⟩

def weeklyWorld : World ℚ := { demoWorld with env := fun _ _ => { knownEnv [1 / 2, 10, 0, -1, 0, 0, 3, 0] with
  globalCache := fun k => if k = "a_weekday" then some cacheWeekday else none } }

def weeklyArgs : RunArgs ℚ := { demoArgs [modelLinear] (some []) with models := ⟨some [modelLinear], some [modelSeasonWday], .add, none, none, some [], none⟩, useCache := true }

example : CountsDays weeklyFrame (4 * DAY) ∧ (weeklyFrame.rows.map Row.x).Nodup ∧
    OnWeeklyPattern weekdayOfDay weeklyFrame (1 / 2) 10 (fun k => if k = 5 then 3 else if k = 2 then -1 else 0) := by
  refine ⟨by unfold CountsDays; decide +kernel, by decide +kernel, ?_⟩
  have hr : ∀ r ∈ weeklyFrame.rows, ∀ v ∈ r.y, v = 1 / 2 * (r.x : ℚ) + 10 +
      (fun k : Int => if k = 5 then 3 else if k = 2 then -1 else (0 : ℚ)) (weekdayOfDay (r.date / (24 * 60 * 60 * 1000000000))) := by decide +kernel
  intro r h1 _ v hv
  exact hr r h1 v hv

example (df' : Frame ℚ) (f : Option Freq) (cand : AddMult × List (ForecastModel ℚ)) (h : candidates weeklyWorld.ch weeklyArgs.models df' f = .ok cand)
    (m : ForecastModel ℚ) (hm : m ∈ cand.2) : m = modelLinear.add modelSeasonWday := by
  have e : candidates weeklyWorld.ch weeklyArgs.models df' f = .ok (.add, [modelLinear.add modelSeasonWday]) := rfl
  rw [e] at h
  cases h
  simpa using hm

/-- The forecast of the three following days. -/
example : ((runSingle weeklyWorld weeklyArgs "s" weeklyFrame).toOption.map fun r =>
    ((r.data.filter fun q => !q.isActuals).drop 15).map fun q => (q.date / DAY, q.model, q.y)) =
    some [(19, "(linear+season_wday)", some (35 / 2)), (20, "(linear+season_wday)", some 17), (21, "(linear+season_wday)", some (37 / 2)),
      (22, "(linear+season_wday)", some 19)] := by decide +kernel

end Anticipy
